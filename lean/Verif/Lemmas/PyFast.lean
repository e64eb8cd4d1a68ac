import Verif.Model.WetTranslate

/-!
# Fast evaluation of the interpreter in the kernel

The interpreter of `Model/Py`, defined by the recursors instead of by structural recursion (which the
kernel unfolds through `brecOn`), and the proof that it is the same function.
-/

set_option autoImplicit false
set_option linter.unusedVariables false

namespace Verif.Py

noncomputable def lookR {α : Type} (k : ℕ) (l : List (ℕ × α)) : Option α :=
  List.rec (motive := fun _ => Option α) none
    (fun p _ ih => Bool.rec ih (some p.2) (Nat.beq p.1 k)) l

noncomputable def putR {α : Type} (k : ℕ) (v : α) (l : List (ℕ × α)) : List (ℕ × α) :=
  List.rec (motive := fun _ => List (ℕ × α)) [(k, v)]
    (fun p l ih => Bool.rec (List.rec (motive := fun _ => List (ℕ × α)) [p] (fun b m _ => p :: b :: m) ih) ((k, v) :: l) (Nat.beq p.1 k)) l

theorem lookR_eq {α : Type} (k : ℕ) (l : List (ℕ × α)) : lookR k l = look k l := by
  induction l with
  | nil => rfl
  | cons p l ih =>
    obtain ⟨k', v⟩ := p
    show Bool.rec (lookR k l) (some v) (Nat.beq k' k) = look k ((k', v) :: l)
    rw [look, ih]
    cases Nat.beq k' k <;> rfl

theorem putR_eq {α : Type} (k : ℕ) (v : α) (l : List (ℕ × α)) : putR k v l = put k v l := by
  induction l with
  | nil => rfl
  | cons p l ih =>
    obtain ⟨k', v'⟩ := p
    show Bool.rec (List.rec (motive := fun _ => List (ℕ × α)) [(k', v')] (fun b m _ => (k', v') :: b :: m)
      (putR k v l)) ((k, v) :: l) (Nat.beq k' k) = put k v ((k', v') :: l)
    rw [put, ih]
    cases Nat.beq k' k
    · cases put k v l <;> rfl
    · rfl

/-- the evaluation of an expression, by a recursor -/
macro "evalRec%" r:ident F:ident e:ident : term =>
  `($r (motive_1 := fun _ => Env → Res Val) (motive_2 := fun _ => Env → Res (List Val))
    (motive_3 := fun _ => Env → List (ℕ × Val) → Res (List (ℕ × Val)))
    (fun n _ => .ok (.int n))
    (fun n d _ => .ok (.num (.rat n d)))
    (fun s _ => .ok (.str s))
    (fun b _ => .ok (.bool b))
    (fun _ => .ok .none)
    (fun x env => match lookR x env with
      | some v => .ok v
      | none => .error .nameError)
    (fun op _ _ ia ib env => ia env >>- fun x => ib env >>- fun y => binop op x y)
    (fun _ _ ia ib env => ia env >>- truth >>- fun r => bif r then ib env else .ok (.bool false))
    (fun _ _ ia ib env => ia env >>- truth >>- fun r => bif r then .ok (.bool true) else ib env)
    (fun _ ia env => ia env >>- negVal)
    (fun _ il env => il env >>- fun l => .ok (.list l))
    (fun _ il env => il env [] >>- mkDict)
    (fun _ _ ia ii env => ia env >>- fun x => ii env >>- fun y => index x y)
    (fun _ _ _ ia il ih env => ia env >>- fun x => il env >>- fun l => ih env >>- fun h => slice x l h)
    (fun _ ia env => ia env >>- revVal)
    (fun _ _ _ ic ia ib env => ic env >>- truth >>- fun r => bif r then ia env else ib env)
    (fun _ il env => il env >>- fun vs => concatVals vs >>- mkStr)
    (fun f _ il env => il env >>- fun vs => $F f vs)
    (fun _ m _ ia il env => ia env >>- fun x => il env >>- fun vs => method x m vs)
    (fun x _ _ iit ib env => iit env >>- fun v => iter v >>- fun l =>
      compList (fun v => ib ((x, v) :: env)) l >>- fun r => .ok (.list r))
    (fun k v _ kb _ iit ikb ivb env => iit env >>- 
      compItems (isVar k kb) (fun key val =>
          ikb ((k, .str key) :: (v, val) :: env) >>- fun kk =>
          ivb ((k, .str key) :: (v, val) :: env) >>- fun vv =>
          asStr kk >>- fun s => .ok (s, vv)))
    (fun _ => .ok [])
    (fun _ _ ie il env => ie env >>- fun v => il env >>- fun vs => .ok (v :: vs))
    (fun _ acc => .ok acc)
    (fun _ _ _ ik iv il env acc => ik env >>- asStr >>- fun s => iv env >>- fun x => il env (putR s x acc))
    $e)

noncomputable def evalER (F : Funs) (e : Expr) : Env → Res Val := evalRec% Expr.rec F e
noncomputable def evalERs (F : Funs) (e : Exprs) : Env → Res (List Val) := evalRec% Exprs.rec F e
noncomputable def evalERp (F : Funs) (e : Pairs) : Env → List (ℕ × Val) → Res (List (ℕ × Val)) :=
  evalRec% Pairs.rec F e

/-- the execution of statements, by a recursor -/
macro "execRec%" r:ident F:ident s:ident : term =>
  `($r (motive_1 := fun _ => Env → Res (Env × Option Val)) (motive_2 := fun _ => Env → Res (Env × Option Val))
    (fun x e env => evalER $F e env >>- fun v => .ok (putR x v env, none))
    (fun xs e env => evalER $F e env >>- fun v => iter v >>- fun vs => bindAll xs vs env >>- fun env => .ok (env, none))
    (fun d k e env => evalER $F k env >>- asStr >>- fun k => evalER $F e env >>- fun v =>
      setItem (lookR d env) k v >>- fun w => .ok (putR d w env, none))
    (fun d k env => evalER $F k env >>- asStr >>- fun k => delItem (lookR d env) k >>- fun w => .ok (putR d w env, none))
    (fun d e env => evalER $F e env >>- fun v => updateVal (lookR d env) v >>- fun w => .ok (putR d w env, none))
    (fun c _ _ it ie env => evalER $F c env >>- truth >>- fun r => bif r then it env else ie env)
    (fun x it _ ib env => evalER $F it env >>- fun v => iter v >>- fun l =>
      loop (fun v env => ib (putR x v env)) l env)
    (fun k v it _ ib env => evalER $F it env >>- pairs >>- fun l =>
      loop (fun p env => pair p >>- fun q => ib (putR v q.2 (putR k q.1 env))) l env)
    (fun e env => evalER $F e env >>- fun v => .ok (env, some v))
    (fun _ => .error .valueError)
    (fun e env => evalER $F e env >>- truth >>- fun r => bif r then .ok (env, none) else .error .assertionError)
    (fun env => .ok (env, none))
    (fun env => .ok (env, none))
    (fun _ _ is il env => is env >>- contWith il)
    $s)

noncomputable def evalSR1 (F : Funs) (s : Stmt) : Env → Res (Env × Option Val) := execRec% Stmt.rec F s
noncomputable def evalSR (F : Funs) (s : Stmts) : Env → Res (Env × Option Val) := execRec% Stmts.rec F s

mutual
theorem evalER_eq (F : Funs) : ∀ (e : Expr) (env : Env), evalER F e env = evalE F e env
  | .int _, _ => by rw [evalE]; rfl
  | .flt _ _, _ => by rw [evalE]; rfl
  | .str _, _ => by rw [evalE]; rfl
  | .bool _, _ => by rw [evalE]; rfl
  | .none, _ => by rw [evalE]; rfl
  | .var x, env => by rw [evalE, ← lookR_eq]; rfl
  | .bin op a b, env => by rw [evalE, ← evalER_eq F a]; simp only [← evalER_eq F b]; rfl
  | .and a b, env => by rw [evalE, ← evalER_eq F a]; simp only [← evalER_eq F b]; rfl
  | .or a b, env => by rw [evalE, ← evalER_eq F a]; simp only [← evalER_eq F b]; rfl
  | .neg a, env => by rw [evalE, ← evalER_eq F a]; rfl
  | .list l, env => by rw [evalE, ← evalERs_eq F l]; rfl
  | .dict l, env => by rw [evalE, ← evalERp_eq F l]; rfl
  | .idx a i, env => by rw [evalE, ← evalER_eq F a]; simp only [← evalER_eq F i]; rfl
  | .slice a l h, env => by
    rw [evalE, ← evalER_eq F a]; simp only [← evalER_eq F l, ← evalER_eq F h]; rfl
  | .rev a, env => by rw [evalE, ← evalER_eq F a]; rfl
  | .cond c a b, env => by
    rw [evalE, ← evalER_eq F c]; simp only [← evalER_eq F a, ← evalER_eq F b]; rfl
  | .fstr l, env => by rw [evalE, ← evalERs_eq F l]; rfl
  | .call f l, env => by rw [evalE, ← evalERs_eq F l]; rfl
  | .meth a m l, env => by rw [evalE, ← evalER_eq F a]; simp only [← evalERs_eq F l]; rfl
  | .comp x it b, env => by rw [evalE, ← evalER_eq F it]; simp only [← evalER_eq F b]; rfl
  | .dcomp k v it kb vb, env => by
    rw [evalE, ← evalER_eq F it]; simp only [← evalER_eq F kb, ← evalER_eq F vb]; rfl
theorem evalERs_eq (F : Funs) : ∀ (e : Exprs) (env : Env), evalERs F e env = evalEs F e env
  | .nil, _ => by rw [evalEs]; rfl
  | .cons e l, env => by rw [evalEs, ← evalER_eq F e]; simp only [← evalERs_eq F l]; rfl
theorem evalERp_eq (F : Funs) : ∀ (e : Pairs) (env : Env) (acc : List (ℕ × Val)),
    evalERp F e env acc = evalPs F e env acc
  | .nil, _, _ => by rw [evalPs]; rfl
  | .cons k v l, env, acc => by
    rw [evalPs, ← evalER_eq F k]
    simp only [← evalER_eq F v, ← evalERp_eq F l, ← putR_eq]; rfl
end

mutual
theorem evalSR1_eq (F : Funs) : ∀ (s : Stmt) (env : Env), evalSR1 F s env = evalS F s env
  | .assign x e, env => by rw [evalS, ← evalER_eq F e]; simp only [← putR_eq]; rfl
  | .unpack xs e, env => by rw [evalS, ← evalER_eq F e]; rfl
  | .setItem d k e, env => by
    rw [evalS, ← evalER_eq F k]; simp only [← evalER_eq F e, ← putR_eq, ← lookR_eq]; rfl
  | .del d k, env => by rw [evalS, ← evalER_eq F k]; simp only [← putR_eq, ← lookR_eq]; rfl
  | .update d e, env => by rw [evalS, ← evalER_eq F e]; simp only [← putR_eq, ← lookR_eq]; rfl
  | .ite c t e, env => by
    rw [evalS, ← evalER_eq F c]; simp only [← evalSR_eq F t, ← evalSR_eq F e]; rfl
  | .for x it b, env => by
    rw [evalS, ← evalER_eq F it]; simp only [← evalSR_eq F b, ← putR_eq]; rfl
  | .for2 k v it b, env => by
    rw [evalS, ← evalER_eq F it]; simp only [← evalSR_eq F b, ← putR_eq]; rfl
  | .ret e, env => by rw [evalS, ← evalER_eq F e]; rfl
  | .raise, _ => by rw [evalS]; rfl
  | .assert e, env => by rw [evalS, ← evalER_eq F e]; rfl
  | .pass, _ => by rw [evalS]; rfl
theorem evalSR_eq (F : Funs) : ∀ (s : Stmts) (env : Env), evalSR F s env = evalSs F s env
  | .nil, _ => by rw [evalSs]; rfl
  | .cons s l, env => by
    rw [evalSs, ← evalSR1_eq F s, ← (funext (evalSR_eq F l) : evalSR F l = evalSs F l)]; rfl
end

noncomputable def callFnR (F : Funs) (globals : Env) (f : Fn) (args : List Val) : Res Val :=
  bindAll f.params args [] >>- fun env =>
  evalSR F f.body (env ++ globals) >>- fun r => .ok (r.2.getD .none)
noncomputable def linkR (base : Funs) (call : Funs → Fn → List Val → Res Val) (l : List Fn) : Funs :=
  List.rec (motive := fun _ => Funs) base
    (fun f _ ih g args => Bool.rec (ih g args) (call ih f args) (Nat.beq g f.name)) l
theorem callFnR_eq (F : Funs) (globals : Env) (f : Fn) (args : List Val) :
    callFnR F globals f args = callFn F globals f args := by
  unfold callFnR callFn
  simp only [evalSR_eq]

theorem linkR_eq (base : Funs) (globals : Env) : ∀ l : List Fn,
    linkR base (fun F f args => callFnR F globals f args) l = link base globals l
  | [] => rfl
  | f :: l => by
    funext g args
    rw [link, ← linkR_eq base globals l]
    simp only [← callFnR_eq]
    change Bool.rec (motive := fun _ => Res Val) (linkR base (fun F f args => callFnR F globals f args) l g args)
      (callFnR (linkR base (fun F f args => callFnR F globals f args) l) globals f args) (Nat.beq g f.name) = _
    cases Nat.beq g f.name <;> rfl

noncomputable def globalEnvR : Env :=
  match evalSR imported Verif.Gen.WetPy.globals [(n!"pi", .num .pi)] with
  | .ok (env, _) => env
  | .error _ => []
noncomputable def wetPyR : Funs := linkR imported (fun F f args => callFnR F globalEnvR f args) Verif.Gen.WetPy.functions.reverse

theorem globalEnvR_eq : globalEnvR = globalEnv := by
  unfold globalEnvR globalEnv
  rw [evalSR_eq]
  rfl

theorem wetPyR_eq : wetPyR = wetPy := by
  unfold wetPyR wetPy
  rw [globalEnvR_eq, linkR_eq]

/-- `outputs`, evaluated fast -/
noncomputable def outputsR (f : ℕ) : Res (List (ℕ × Sym)) :=
  wetPyR f [.inputs, .none, .none, .none] >>- asTree >>- fun t => numbers t.toList

theorem outputsR_eq (f : ℕ) : outputsR f = outputs f := by
  unfold outputsR outputs translate
  rw [wetPyR_eq]

end Verif.Py
