import Verif.Spec.Cli

/-!
# C93, C94: the command line programs
-/

set_option autoImplicit false
set_option linter.unusedSimpArgs false

namespace Verif.Cli
open Verif

variable (L : Lib)

/-! ## Helpers -/

theorem m_bind {α β : Type} (x : M α) (f : α → M β) (w : World) :
    (x >>= f) w = match x w with
      | (.ok a, w') => f a w'
      | (.error e, w') => (.error e, w') := rfl

theorem m_pure {α : Type} (a : α) (w : World) : (pure a : M α) w = (.ok a, w) := rfl

theorem e_ok {α β : Type} (a : α) (f : α → Except Exc β) : (Except.ok a >>= f) = f a := rfl

theorem e_error {α β : Type} (e : Exc) (f : α → Except Exc β) : (Except.error e >>= f) = .error e := rfl

theorem m_ite {α : Type} (c : Prop) [Decidable c] (x y : M α) (w : World) :
    (if c then x else y) w = if c then x w else y w := by split_ifs <;> rfl

/-- `dump` writes the requested format -/
theorem dump_eq (fmt : String) (l : Loaded) : dump L fmt l = written L fmt l := rfl

/-- the result of a text that is computed and written -/
def Emits (x : M Unit) (w : World) (t : Target) (r : Except Exc String) : Prop :=
  x w = match r with
    | .ok s => (.ok (), w.put t s)
    | .error e => (.error e, w)

theorem read_apart {w : World} {i : Source} {text : String} (h : textOf w i = some text) :
    read i w = (.ok text, w) := by
  cases i with
  | stdin t => cases h; rfl
  | file p => simp only [textOf] at h; simp [read, h]

theorem textOf_trunc {w : World} {i : Source} {t : Target} (h : Apart i t) : textOf (w.trunc t) i = textOf w i := by
  cases i with
  | stdin _ => rfl
  | file p =>
    cases t with
    | stdout => rfl
    | file q =>
      have : p ≠ q := fun e => h p rfl (by rw [e])
      simp [textOf, World.trunc, Function.update_of_ne this]

theorem open_ok {w : World} {i : Source} {t : Target} {text : String} (hi : textOf w i = some text)
    (ha : Apart i t) (o : Bool) : openFiles i t o w = (true, w.trunc t) := by
  have m : ∀ w' : World, textOf w' i = some text → missing w' i = false := by
    intro w' h
    cases i with
    | stdin _ => rfl
    | file p => simp only [textOf] at h; simp [missing, h]
  cases o
  · simp [openFiles, m w hi]
  · simp [openFiles, m _ ((textOf_trunc ha).trans hi)]

theorem received {w : World} {t : Target} {s : String} : Received w ((w.trunc t).put t s) t s := by
  cases t <;> simp [Received, World.trunc, World.put]

/-! ## C93 -/

/-- the subcommands, outside of the silent cases -/
theorem cmd_emits' {w : World} {i : Source} {c : Cmd} {text : String} (hi : textOf w i = some text)
    (hs : ¬((∃ fmt out, c = .convert fmt out ∧
      (lower fmt ≠ "json" ∧ lower fmt ≠ "yaml" ∨ lower fmt = "json" ∧ L.yamlLoad text = none ∨
        lower fmt = "yaml" ∧ L.jsonLoad text = none)) ∨
      (∃ type, c = .validate type ∧ type ≠ "eft" ∧ type ≠ "basis" ∧ type ≠ "wc") ∨ c = .none)) :
    Emits (runCmd L i c) w c.out (api L c text) := by
  unfold Emits
  have hr := read_apart hi
  cases c with
  | none =>
    exact absurd (.inr (.inr rfl)) hs
  | convert fmt out =>
    by_cases hj : lower fmt = "json"
    · have hy : lower fmt ≠ "yaml" := by rw [hj]; decide
      cases hl : L.yamlLoad text with
      | none =>
        exact absurd (.inl ⟨fmt, out, rfl, .inr (.inl ⟨hj, hl⟩)⟩) hs
      | some d =>
        cases he : L.json d <;>
          simp [runCmd, convert, convertJson, convertYaml, api, hj, hy, m_bind, m_pure, m_ite, hr, hl, document, e_ok, e_error, he, lift, write, Cmd.out]
    · by_cases hy : lower fmt = "yaml"
      · cases hl : L.jsonLoad text with
        | none =>
          exact absurd (.inl ⟨fmt, out, rfl, .inr (.inr ⟨hy, hl⟩)⟩) hs
        | some d =>
          cases he : L.yaml d <;>
            simp [runCmd, convert, convertJson, convertYaml, api, hj, hy, m_bind, m_pure, m_ite, hr, hl, document, e_ok, e_error, he, lift, write, Cmd.out]
      · exact absurd (.inl ⟨fmt, out, rfl, .inl ⟨hj, hy⟩⟩) hs
  | translate basis fmt out =>
    cases hp : L.parse text with
    | none => simp [runCmd, translate, api, loadWC, m_bind, hr, hp, document, e_ok, e_error, lift]
    | some d =>
      cases hw : L.wcOf d with
      | error e => simp [runCmd, translate, api, loadWC, m_bind, hr, hp, hw, document, e_ok, e_error, lift]
      | ok wc =>
        cases ht : wc.translate L basis with
        | error e => simp [runCmd, translate, api, loadWC, m_bind, hr, hp, hw, ht, document, e_ok, e_error, lift]
        | ok o =>
          cases hd : written L fmt o <;>
            simp [runCmd, translate, api, loadWC, m_bind, hr, hp, hw, ht, dump_eq, hd, document, e_ok, e_error, lift, write, Cmd.out]
  | «match» eft basis fmt out =>
    cases hp : L.parse text with
    | none => simp [runCmd, matchCmd, api, loadWC, m_bind, hr, hp, document, e_ok, e_error, lift]
    | some d =>
      cases hw : L.wcOf d with
      | error e => simp [runCmd, matchCmd, api, loadWC, m_bind, hr, hp, hw, document, e_ok, e_error, lift]
      | ok wc =>
        cases ht : wc.match L eft basis with
        | error e => simp [runCmd, matchCmd, api, loadWC, m_bind, hr, hp, hw, ht, document, e_ok, e_error, lift]
        | ok o =>
          cases hd : written L fmt o <;>
            simp [runCmd, matchCmd, api, loadWC, m_bind, hr, hp, hw, ht, dump_eq, hd, document, e_ok, e_error, lift, write, Cmd.out]
  | validate type =>
    by_cases h1 : type = "eft"
    · cases hp : L.parse text with
      | none => simp [runCmd, validate, api, h1, m_bind, m_ite, hr, hp, document, e_ok, e_error, lift]
      | some d =>
        cases he : L.eftOf d <;>
          simp [runCmd, validate, api, h1, m_bind, m_ite, hr, hp, document, e_ok, e_error, he, lift, write, Cmd.out, successText]
    · by_cases h2 : type = "basis"
      · cases hp : L.parse text with
        | none => simp [runCmd, validate, api, h1, h2, m_bind, m_ite, hr, hp, document, e_ok, e_error, lift]
        | some d =>
          cases hb : L.basisOf d with
          | error e => simp [runCmd, validate, api, h1, h2, m_bind, m_ite, hr, hp, hb, document, e_ok, e_error, lift]
          | ok b =>
            cases he : b.validate L.bases L.latexOk <;>
              simp [runCmd, validate, api, h1, h2, m_bind, m_ite, hr, hp, hb, document, e_ok, e_error, he, lift, write, Cmd.out,
                successText]
      · by_cases h3 : type = "wc"
        · cases hp : L.parse text with
          | none => simp [runCmd, validate, api, loadWC, h1, h2, h3, m_bind, m_ite, hr, hp, document, e_ok, e_error, lift]
          | some d =>
            cases hb : L.wcOf d with
            | error e => simp [runCmd, validate, api, loadWC, h1, h2, h3, m_bind, m_ite, hr, hp, hb, document, e_ok, e_error, lift]
            | ok b =>
              cases he : b.validate L <;>
                simp [runCmd, validate, api, loadWC, h1, h2, h3, m_bind, m_ite, hr, hp, hb, document, e_ok, e_error, he, lift, write,
                  Cmd.out, successText]
        · exact absurd (.inr (.inl ⟨type, rfl, h1, h2, h3⟩)) hs

/-- the subcommands, outside of the silent cases or if the calls of the library succeed -/
theorem cmd_emits {w : World} {i : Source} {c : Cmd} {text : String} (hi : textOf w i = some text)
    (hs : ¬Silent L c text ∨ ∃ s, api L c text = .ok s) : Emits (runCmd L i c) w c.out (api L c text) := by
  refine cmd_emits' L hi fun h => ?_
  rcases hs with hs | ⟨s, hs⟩
  · refine hs ?_
    rcases h with h | h | h
    · exact .inl h
    · exact .inr (.inl h)
    · exact .inr (.inr (.inl h))
  · rcases h with ⟨fmt, out, rfl, ⟨h1, h2⟩ | ⟨h1, h2⟩ | ⟨h1, h2⟩⟩ | ⟨type, rfl, h1, h2, h3⟩ | rfl
    · simp [api, h1, h2] at hs
    · simp [api, h1, h2, document, e_error] at hs
    · simp [api, h1, h2, document, e_error] at hs
    · simp [api, h1, h2, h3] at hs
    · cases hs

/-- C93: if the library calls succeed, `wcxf` ends with status 0 and the output consists of exactly the text that
they give. -/
theorem C93_success {w : World} {i : Source} {c : Cmd} {text s : String} (o : Bool)
    (hi : textOf w i = some text) (ha : Apart i c.out) (h : api L c text = .ok s) :
    (wcxfCli L i c o w).1 = .exit 0 ∧ Received w (wcxfCli L i c o w).2 c.out s := by
  have e := cmd_emits L ((textOf_trunc ha).trans hi) (.inr ⟨s, h⟩)
  unfold Emits at e
  rw [h] at e
  unfold wcxfCli
  rw [open_ok hi ha o]
  simp only [e]
  exact ⟨trivial, received⟩

/-- C93: if the library calls fail, the program ends with the same exception.  Missing: the failures that are not
reported, see `Silent` and the violation. -/
theorem C93_failure_partial {w : World} {i : Source} {c : Cmd} {text : String} {e : Exc} (o : Bool)
    (hi : textOf w i = some text) (ha : Apart i c.out) (hs : ¬Silent L c text) (h : api L c text = .error e) :
    (wcxfCli L i c o w).1 = .traceback e := by
  have em := cmd_emits L ((textOf_trunc ha).trans hi) (.inl hs)
  unfold Emits at em
  rw [h] at em
  unfold wcxfCli
  rw [open_ok hi ha o]
  simp only [em]
  cases e <;> first | rfl | exact absurd (.inr (.inr (.inr h))) hs

/-- what the subcommands do in the silent cases: nothing, except for a message -/
theorem cmd_silent {w : World} {i : Source} {c : Cmd} {text : String} (hi : textOf w i = some text)
    (hs : Silent L c text) : (∃ m, runCmd L i c w = (.ok (), { w with log := w.log ++ m }) ∧ ∃ e, api L c text = .error e) ∨
      runCmd L i c w = (.error .attributeError, w) ∧ ∃ e, api L c text = .error e := by
  have hr := read_apart hi
  by_cases hq : (∃ fmt out, c = .convert fmt out ∧
    (lower fmt ≠ "json" ∧ lower fmt ≠ "yaml" ∨ lower fmt = "json" ∧ L.yamlLoad text = none ∨
      lower fmt = "yaml" ∧ L.jsonLoad text = none)) ∨
    (∃ type, c = .validate type ∧ type ≠ "eft" ∧ type ≠ "basis" ∧ type ≠ "wc") ∨ c = .none
  · rcases hq with ⟨fmt, out, rfl, h⟩ | ⟨type, rfl, h1, h2, h3⟩ | rfl
    · left
      rcases h with ⟨h1, h2⟩ | ⟨h1, h2⟩ | ⟨h1, h2⟩
      · refine ⟨[], ?_, .valueError, ?_⟩
        · simp [runCmd, convert, convertJson, convertYaml, h1, h2, m_pure, m_bind, m_ite]
        · simp [api, h1, h2]
      · have hy : lower fmt ≠ "yaml" := by rw [h1]; decide
        refine ⟨["Input file cannot be parsed as YAML."], ?_, .other 0, ?_⟩
        · simp [runCmd, convert, convertJson, convertYaml, h1, h2, hy, m_pure, m_bind, m_ite, hr, logError]
        · simp [api, h1, h2, document, e_error]
      · have hy : lower fmt ≠ "json" := by rw [h1]; decide
        refine ⟨["Input file cannot be parsed as JSON."], ?_, .other 0, ?_⟩
        · simp [runCmd, convert, convertJson, convertYaml, h1, h2, hy, m_pure, m_bind, m_ite, hr, logError]
        · simp [api, h1, h2, hy, document, e_error]
    · left
      refine ⟨["TYPE should be 'eft', 'basis', or 'wc'"], ?_, .valueError, ?_⟩
      · simp [runCmd, validate, h1, h2, h3, logError]
      · simp [api, h1, h2, h3]
    · right
      exact ⟨rfl, _, rfl⟩
  · have ha : api L c text = .error .attributeError := by
      rcases hs with h | h | h | h
      · exact absurd (.inl h) hq
      · exact absurd (.inr (.inl h)) hq
      · exact absurd (.inr (.inr h)) hq
      · exact h
    right
    have := cmd_emits' L hi hq
    unfold Emits at this
    rw [ha] at this
    exact ⟨this, _, ha⟩

/-- C93: the silent failures: status 0 although the request was not carried out. -/
theorem C93_silent_violation {w : World} {i : Source} {c : Cmd} {text : String} (o : Bool)
    (hi : textOf w i = some text) (ha : Apart i c.out) (hs : Silent L c text) :
    (wcxfCli L i c o w).1 = .exit 0 ∧ ∃ e, api L c text = .error e := by
  unfold wcxfCli
  rw [open_ok hi ha o]
  rcases cmd_silent L ((textOf_trunc ha).trans hi) hs with ⟨m, h, he⟩ | ⟨h, he⟩ <;>
  · simp only [h]
    exact ⟨trivial, he⟩

theorem append_cancel {a b c : String} (h : a ++ b = a ++ c) : b = c := by
  rw [← String.toList_inj] at h ⊢
  simpa using h

/-- C93: `wcxf validate` prints the message of success if and only if the file is valid. -/
theorem C93_message {w : World} {i : Source} {type text : String} (o : Bool) (hi : textOf w i = some text) :
    (wcxfCli L i (.validate type) o w).2.stdout = w.stdout ++ "Validation successful.\n" ↔
      ∃ s, api L (.validate type) text = .ok s := by
  have ha : Apart i (Cmd.validate type).out := fun p _ h => by cases h
  have hw : w.trunc (Cmd.validate type).out = w := rfl
  constructor
  · intro h
    by_cases hs : Silent L (.validate type) text
    · exfalso
      unfold wcxfCli at h
      rw [open_ok hi ha o, hw] at h
      rcases cmd_silent L hi hs with ⟨m, h', -⟩ | ⟨h', -⟩
      · simp only [h'] at h
        have : w.stdout ++ "" = w.stdout ++ "Validation successful.\n" := by simpa using h
        exact absurd (append_cancel this) (by decide)
      · simp only [h'] at h
        exact absurd (append_cancel h) (by decide)
    · have e := cmd_emits L hi (.inl hs)
      unfold Emits at e
      unfold wcxfCli at h
      rw [open_ok hi ha o, hw] at h
      cases hx : api L (.validate type) text with
      | ok s => exact ⟨s, rfl⟩
      | error x =>
        exfalso
        rw [hx] at e
        simp only [e] at h
        have : w.stdout = w.stdout ++ "Validation successful.\n" ∨ helpText = "Validation successful.\n" := by
          cases x
          case attributeError => exact .inr (append_cancel h)
          all_goals exact .inl h
        rcases this with h | h
        · have : w.stdout ++ "" = w.stdout ++ "Validation successful.\n" := by simpa using h
          exact absurd (append_cancel this) (by decide)
        · exact absurd h (by decide)
  · rintro ⟨s, hs⟩
    have := (C93_success L o hi ha hs).2
    have hs' : s = "Validation successful.\n" := by
      simp only [api] at hs
      split_ifs at hs
      · cases hp : document (L.parse text) with
        | error e => rw [hp] at hs; cases hs
        | ok d =>
          rw [hp, e_ok] at hs
          cases hq : L.eftOf d with
          | error e => rw [hq] at hs; cases hs
          | ok d => rw [hq, e_ok] at hs; exact (Except.ok.inj hs).symm
      · cases hp : document (L.parse text) with
        | error e => rw [hp] at hs; cases hs
        | ok d =>
          rw [hp, e_ok] at hs
          cases hq : L.basisOf d with
          | error e => rw [hq] at hs; cases hs
          | ok b =>
            rw [hq, e_ok] at hs
            cases hv : b.validate L.bases L.latexOk with
            | error e => rw [hv] at hs; cases hs
            | ok _ => rw [hv, e_ok] at hs; exact (Except.ok.inj hs).symm
      · cases hp : document (L.parse text) with
        | error e => rw [hp] at hs; cases hs
        | ok d =>
          rw [hp, e_ok] at hs
          cases hq : L.wcOf d with
          | error e => rw [hq] at hs; cases hs
          | ok b =>
            rw [hq, e_ok] at hs
            cases hv : b.validate L with
            | error e => rw [hv] at hs; cases hs
            | ok _ => rw [hv, e_ok] at hs; exact (Except.ok.inj hs).symm
    rw [← hs']
    exact this

/-! ## C94 -/

/-- a piece of code that changes no other file than the output -/
def Keeps (t : Target) {α : Type} (x : M α) : Prop := ∀ w, OthersKept t w (x w).2

theorem OthersKept.trans {t : Target} {a b c : World} (h : OthersKept t a b) (h' : OthersKept t b c) :
    OthersKept t a c := fun p hp => (h' p hp).trans (h p hp)

theorem Keeps.bind {t : Target} {α β : Type} {x : M α} {f : α → M β} (hx : Keeps t x) (hf : ∀ a, Keeps t (f a)) :
    Keeps t (x >>= f) := by
  intro w
  rw [m_bind]
  have := hx w
  rcases h : x w with ⟨a | a, w'⟩ <;> rw [h] at this
  · exact this
  · exact this.trans (hf a w')

theorem Keeps.ite {t : Target} {α : Type} {c : Prop} [Decidable c] {x y : M α} (hx : Keeps t x) (hy : Keeps t y) :
    Keeps t (if c then x else y) := by split_ifs <;> assumption

theorem Keeps.lift {t : Target} {α : Type} {x : Except Exc α} : Keeps t (Cli.lift x) := fun _ _ _ => rfl

theorem Keeps.pure {t : Target} {α : Type} {a : α} : Keeps t (Pure.pure a : M α) := fun _ _ _ => rfl

theorem Keeps.read {t : Target} {i : Source} : Keeps t (read i) := by
  intro w p _
  cases i <;> rfl

theorem Keeps.log {t : Target} {s : String} : Keeps t (logError s) := fun _ _ _ => rfl

theorem kept_put (w : World) (t : Target) (s : String) : OthersKept t w (w.put t s) := by
  intro p hp
  cases t with
  | stdout => rfl
  | file q => exact Function.update_of_ne (fun e => hp (by rw [e])) _ _

theorem kept_trunc (w : World) (t : Target) : OthersKept t w (w.trunc t) := by
  intro p hp
  cases t with
  | stdout => rfl
  | file q => exact Function.update_of_ne (fun e => hp (by rw [e])) _ _

theorem Keeps.write {t : Target} {s : String} : Keeps t (write t s) := fun w => kept_put w t s

theorem Keeps.print {t : Target} {s : String} : Keeps t (Cli.write .stdout s) := fun _ _ _ => rfl

theorem Keeps.openOut {t : Target} : Keeps t (Cli.openOut t) := fun w => kept_trunc w t

theorem kept_open (i : Source) (t : Target) (o : Bool) (w : World) : OthersKept t w (openFiles i t o w).2 := by
  unfold openFiles
  split_ifs
  · exact kept_trunc w t
  · exact fun _ _ => rfl
  · exact kept_trunc w t

theorem kept_finish {t : Target} {x : M ℕ} (hx : Keeps t x) (w : World) : OthersKept t w (finish x w).2 := by
  unfold finish
  have := hx w
  rcases h : x w with ⟨a | a, w'⟩ <;> rw [h] at this <;> exact this

theorem keeps_cmd (i : Source) (c : Cmd) : Keeps c.out (runCmd L i c) := by
  cases c with
  | convert fmt out =>
    refine .bind (.ite (.bind .read fun text => ?_) .pure) fun _ => .ite (.bind .read fun text => ?_) .pure
    · cases L.yamlLoad text
      · exact .log
      · exact .bind .lift fun _ => .write
    · cases L.jsonLoad text
      · exact .log
      · exact .bind .lift fun _ => .write
  | translate basis fmt out =>
    exact .bind .read fun _ => .bind .lift fun _ => .bind .lift fun _ => .bind .lift fun _ => .write
  | «match» eft basis fmt out =>
    exact .bind .read fun _ => .bind .lift fun _ => .bind .lift fun _ => .bind .lift fun _ => .write
  | validate type =>
    exact .ite (.bind .read fun _ => .bind .lift fun _ => .bind .lift fun _ => .print) <|
      .ite (.bind .read fun _ => .bind .lift fun _ => .bind .lift fun _ => .bind .lift fun _ => .print) <|
      .ite (.bind .read fun _ => .bind .lift fun _ => .bind .lift fun _ => .print) .log
  | none => exact .lift

/-- C94: `wcxf` changes no other file than its output; without `--output`, none at all. -/
theorem C94_wcxf (i : Source) (c : Cmd) (o : Bool) (w : World) :
    OthersKept c.out w (wcxfCli L i c o w).2 := by
  have h1 := kept_open i c.out o w
  unfold wcxfCli
  rcases h : openFiles i c.out o w with ⟨b, w1⟩
  rw [h] at h1
  cases b
  · exact h1
  · have h2 := keeps_cmd L i c w1
    rcases h' : runCmd L i c w1 with ⟨x, w2⟩
    rw [h'] at h2
    simp only [h']
    rcases x with x | x
    · cases x <;> exact h1.trans h2
    · exact h1.trans h2

/-- C94: the same for `wcxf2eos`. -/
theorem C94_eos (i : Source) (pre : String) (out : Target) (home : Option String) (o : Bool) (w : World) :
    OthersKept (eosTarget out home) w (eos L i pre out home o w).2 := by
  have h1 := kept_open i out o w
  have body : ∀ t, Keeps t (eosBody L i pre t) := fun t =>
    .bind .read fun _ => .bind .lift fun _ => .bind .lift fun _ => .bind .lift fun _ => .bind .lift fun _ =>
      .bind .write fun _ => .pure
  unfold eos
  rcases h : openFiles i out o w with ⟨b, w1⟩
  rw [h] at h1
  cases home with
  | none =>
    change OthersKept out w _
    cases b
    · exact h1
    · cases out <;> exact h1.trans (kept_finish (body _) _)
  | some hm =>
    cases out with
    | file q =>
      change OthersKept (.file q) w _
      cases b
      · exact h1
      · exact h1.trans (kept_finish (.bind .log fun _ => .pure) _)
    | stdout =>
      change OthersKept (.file (eosFile hm)) w _
      replace h1 : OthersKept (.file (eosFile hm)) w w1 := fun p _ => h1 p (by simp)
      cases b
      · exact h1
      · simp only
        split_ifs
        · exact (h1.trans (kept_trunc _ _)).trans (kept_finish (body _) _)
        · exact h1.trans (kept_finish (.bind .log fun _ => .pure) _)

/-- C94: the same for `wcxf2dsixtools`. -/
theorem C94_wcxf2dsixtools (i : Source) (out : Target) (o : Bool) (w : World) :
    OthersKept out w (wcxf2dsixtools L i out o w).2 := by
  have h1 := kept_open i out o w
  unfold wcxf2dsixtools
  rcases h : openFiles i out o w with ⟨b, w1⟩
  rw [h] at h1
  cases b
  · exact h1
  · exact h1.trans (kept_finish (.bind .read fun _ => .bind .lift fun _ => .bind .lift fun _ => .bind .lift fun _ =>
      .bind .write fun _ => .pure) _)

/-- C94: the same for `dsixtools2wcxf`. -/
theorem C94_dsixtools2wcxf (ps : List String) (out : Target) (w : World) :
    OthersKept out w (dsixtools2wcxf L ps out w).2 := by
  have all : ∀ ps, Keeps out (readAll ps) := by
    intro ps
    induction ps with
    | nil => exact .pure
    | cons p ps ih => exact .bind .read fun _ => .bind ih fun _ => .pure
  unfold dsixtools2wcxf
  split_ifs
  · exact fun _ _ => rfl
  · exact (kept_trunc _ _).trans (kept_finish (.bind (all ps) fun _ => .bind .lift fun _ => .bind .write fun _ => .pure) _)

/-- C94: the same for `wcxf2smeftsim`; and an invalid input, or one that the user decides not to convert, leaves
the existing card alone. -/
theorem C94_smeftsim (i : Source) (output key : String) (w : World) :
    OthersKept (.file output) w (smeftsim L i output key w).2 ∧
    (∀ text e, textOf w i = some text → (loadWC L text >>= fun wc => wc.validate L) = .error e →
      smeftsim L i output key w = (.traceback e, w)) ∧
    (∀ text wc, textOf w i = some text → loadWC L text = .ok wc → wc.basis ≠ "Warsaw mass" → key ≠ "i" → key ≠ "I" →
      (smeftsim L i output key w).2.files = w.files) := by
  have m : ∀ text, textOf w i = some text → missing w i = false := by
    intro text h
    cases i with
    | stdin _ => rfl
    | file p => simp only [textOf] at h; simp [missing, h]
  refine ⟨?_, fun text e ht he => ?_, fun text wc ht hl hb h1 h2 => ?_⟩
  · unfold smeftsim
    split_ifs
    · exact fun _ _ => rfl
    · refine kept_finish (.bind .read fun _ => .bind .lift fun _ => .bind .lift fun _ =>
        .bind (.ite .print .pure) fun _ => .ite .pure (.bind .openOut fun _ => .bind .lift fun _ =>
        .bind .write fun _ => .pure)) _
  · unfold smeftsim
    rw [m text ht]
    cases hl : loadWC L text with
    | error x =>
      rw [hl] at he
      cases he
      simp [finish, m_bind, read_apart ht, lift, hl]
    | ok wc =>
      rw [hl, e_ok] at he
      simp [finish, m_bind, read_apart ht, lift, hl, he]
  · unfold smeftsim
    rw [m text ht]
    cases he : wc.validate L <;>
      simp [finish, m_bind, m_pure, m_ite, read_apart ht, lift, hl, he, hb, h1, h2, write, World.put]

/-- C94: the input is unchanged, if the output is another file. -/
theorem C94_input_kept {w : World} {i : Source} {c : Cmd} (o : Bool) (ha : Apart i c.out) :
    textOf (wcxfCli L i c o w).2 i = textOf w i := by
  cases i with
  | stdin _ => rfl
  | file p => exact C94_wcxf L (.file p) c o w p fun h => ha p rfl h

/-- C94: a completed request leaves the input unchanged and the complete result in the output.  Missing: requests
that fail, and outputs that are the input itself; see the violations. -/
theorem C94_completed_partial {w : World} {i : Source} {c : Cmd} {text s : String} (o : Bool)
    (hi : textOf w i = some text) (ha : Apart i c.out) (h : api L c text = .ok s) :
    textOf (wcxfCli L i c o w).2 i = some text ∧ Received w (wcxfCli L i c o w).2 c.out s ∧
      OthersKept c.out w (wcxfCli L i c o w).2 :=
  ⟨(C94_input_kept L o ha).trans hi, (C93_success L o hi ha h).2, C94_wcxf L i c o w⟩

/-- C94, violated: whenever a request fails, the previous contents of the output file are lost. -/
theorem C94_truncated_violation {w : World} {i : Source} {c : Cmd} {text p : String} {e : Exc} (o : Bool)
    (hi : textOf w i = some text) (ha : Apart i c.out) (hc : c.out = .file p) (h : api L c text = .error e) :
    (wcxfCli L i c o w).2.files p = some "" := by
  have ht : (w.trunc c.out).files p = some "" := by rw [hc]; simp [World.trunc]
  unfold wcxfCli
  rw [open_ok hi ha o]
  by_cases hs : Silent L c text
  · rcases cmd_silent L ((textOf_trunc ha).trans hi) hs with ⟨m, h', -⟩ | ⟨h', -⟩ <;>
    · simp only [h']
      exact ht
  · have em := cmd_emits L ((textOf_trunc ha).trans hi) (.inl hs)
    unfold Emits at em
    rw [h] at em
    simp only [em]
    cases e <;> exact ht

/-! ## Examples and violations -/

/-- A library with one EFT and one basis.  Files are valid, unless they are empty or contain "list" (values that are
not a mapping) or "unknown" (a coefficient that does not exist). -/
def exLib : Lib where
  Doc := String
  parse t := if t = "" then some "null" else some t
  yamlLoad t := if t = "" then some "null" else some t
  jsonLoad t := if t = "" then none else some t
  json := .ok
  yaml := .ok
  wcOf d :=
    if d = "null" then .error .typeError
    else if d = "list" then .ok ⟨"WET", "JMS", 5, none, []⟩
    else if d = "unknown" then .ok ⟨"WET", "JMS", 5, some [("b", .num 1)], []⟩
    else .ok ⟨"WET", "JMS", 5, some [("a", .num 1)], []⟩
  eftOf _ := .ok ⟨"WET", []⟩
  basisOf _ := .error .typeError
  docOf l := l.eft
  latexOk _ := true
  bases := ⟨some [("WET", ⟨"WET", [("s", ())]⟩)], some [(("WET", "JMS"), ⟨"WET", "JMS", none, some [("s", [("a", none)])]⟩)]⟩
  physics := ⟨none, none⟩
  eos _ _ := .ok ""
  card _ := .ok ""
  dsix _ := .ok ""
  undsix _ := .ok ""

/-- a world with an input file, other files that exist already, and an EOS installation -/
def exWorld (text : String) : World where
  files := fun p => if p = "in" then some text else some "precious"
  isDir := fun _ => true
  stdout := ""
  log := []

theorem exApart {i : Source} (hi : i = .file "in") : Apart i (.file "out") := by
  subst hi
  intro p h
  cases h
  simp

/-- C93, example: a valid file is validated and translated. -/
theorem C93_example : textOf (exWorld "good") (.file "in") = some "good" ∧ Apart (.file "in") (.file "out") ∧
    api exLib (.validate "wc") "good" = .ok "Validation successful.\n" ∧
    api exLib (.translate "JMS" "JSON" (.file "out")) "good" = .ok "WET" ∧
    ¬Silent exLib (.translate "Bern" "json" (.file "out")) "good" ∧
    api exLib (.translate "Bern" "json" (.file "out")) "good" = .error .valueError := by
  have e : api exLib (.translate "Bern" "json" (.file "out")) "good" = .error .valueError := by
    simp [api, exLib, document, Loaded.translate, WC.translate, e_ok, Loaded.toWC, Registry.get?, Dict.get?, Except.map, e_error]
  refine ⟨rfl, exApart rfl, ?_, ?_, ?_, e⟩
  · simp [api, exLib, document, e_ok, Loaded.validate, WC.validate, Registry.get?, Dict.get?, Basis.allWcs, Loaded.toWC,
      Dict.keys]
  · have : lower "JSON" = "json" := by decide
    simp [api, exLib, document, e_ok, Loaded.translate, WC.translate, Loaded.toWC, written, this, ofWC, Except.map]
  · rintro (⟨f, o, h, -⟩ | ⟨t, h, -⟩ | h | h)
    · cases h
    · cases h
    · cases h
    · rw [e] at h; cases h

/-- C93, violated: status 0 for an unknown format (nothing is written), for an unknown type of file, and for a file
whose values are not a mapping. -/
theorem C93_violation (o : Bool) :
    (Silent exLib (.convert "xml" (.file "out")) "good" ∧
      (wcxfCli exLib (.file "in") (.convert "xml" (.file "out")) o (exWorld "good")).1 = .exit 0) ∧
    (Silent exLib (.validate "WC") "good" ∧
      (wcxfCli exLib (.file "in") (.validate "WC") o (exWorld "good")).1 = .exit 0) ∧
    (api exLib (.validate "wc") "list" = .error .attributeError ∧
      (wcxfCli exLib (.file "in") (.validate "wc") o (exWorld "list")).1 = .exit 0) := by
  have h1 : Silent exLib (.convert "xml" (.file "out")) "good" :=
    .inl ⟨"xml", .file "out", rfl, .inl ⟨by decide, by decide⟩⟩
  have h2 : Silent exLib (.validate "WC") "good" := .inr (.inl ⟨"WC", rfl, by decide, by decide, by decide⟩)
  have h3 : api exLib (.validate "wc") "list" = .error .attributeError := by
    simp [api, exLib, document, e_ok, Loaded.validate, Registry.get?, Dict.get?, e_error]
  exact ⟨⟨h1, (C93_silent_violation exLib o rfl (exApart rfl) h1).1⟩,
    ⟨h2, (C93_silent_violation exLib o rfl (fun _ _ h => by cases h) h2).1⟩,
    ⟨h3, (C93_silent_violation exLib o rfl (fun _ _ h => by cases h) (.inr (.inr (.inr h3)))).1⟩⟩

/-- C94, violated: (1) a translation that does not exist empties the output file; (2) the conversion of a file in
place, with status 0, replaces its contents by an empty document; (3) an invalid file given to `wcxf2eos` empties the
file in the EOS installation. -/
theorem C94_violation (o : Bool) :
    ((exWorld "good").files "out" = some "precious" ∧
      (wcxfCli exLib (.file "in") (.translate "Bern" "json" (.file "out")) o (exWorld "good")).2.files "out" = some "") ∧
    (wcxfCli exLib (.file "in") (.convert "json" (.file "in")) o (exWorld "good")).1 = .exit 0 ∧
    (wcxfCli exLib (.file "in") (.convert "json" (.file "in")) o (exWorld "good")).2.files "in" = some "null" ∧
    (eos exLib (.file "in") "/usr" .stdout (some "/home/eos") o (exWorld "unknown")).1 = .traceback .assertionError ∧
    (exWorld "unknown").files "/home/eos/parameters/wcxf.yaml" = some "precious" ∧
    (eos exLib (.file "in") "/usr" .stdout (some "/home/eos") o (exWorld "unknown")).2.files
      "/home/eos/parameters/wcxf.yaml" = some "" := by
  refine ⟨⟨rfl, C94_truncated_violation exLib o rfl (exApart rfl) rfl C93_example.2.2.2.2.2⟩, ?_, ?_, ?_, rfl, ?_⟩
  · cases o <;> rfl
  · cases o <;> rfl
  · cases o <;> rfl
  · cases o <;> rfl

/-- C94, example: an invalid file does not harm the existing SMEFTsim card. -/
theorem C94_example : textOf (exWorld "unknown") (.file "in") = some "unknown" ∧
    (loadWC exLib "unknown" >>= fun wc => wc.validate exLib) = .error .assertionError ∧
    (∃ wc, loadWC exLib "good" = .ok wc ∧ wc.basis ≠ "Warsaw mass") := by
  refine ⟨rfl, ?_, ⟨"WET", "JMS", 5, some [("a", .num 1)], []⟩, ?_, ?_⟩
  · simp [loadWC, exLib, e_ok, Loaded.validate, WC.validate, Registry.get?, Dict.get?, Basis.allWcs, Loaded.toWC, Dict.keys]
  · simp [loadWC, exLib, e_ok]
  · decide

end Verif.Cli
