import Verif.Model.JmsArrays
import Mathlib.Data.Complex.Basic
import Mathlib.Analysis.Real.Sqrt
import Mathlib.Analysis.Real.Pi.Bounds

/-!
# The fragment of Python in which `translate/wet.py` is written

The translators between the WET bases are long straight-line programs: they build names of Wilson
coefficients by string operations, look them up, and form dictionaries of arithmetic expressions in
the values.  No control flow depends on the *values* of the coefficients.  The functions are embedded
as syntax trees (`Gen/WetPy.lean`, a purely syntactic dump of the source), and this file gives their
semantics: an interpreter whose numbers are formulas (`Sym`) in the inputs, together with the value
`Sym.eval` of a formula for given inputs.  Floating point arithmetic is replaced by exact arithmetic.
-/

set_option autoImplicit false

namespace Verif.Py

/-! ## Numbers: formulas in the inputs -/

/-- A number computed by a translator, as a formula in the inputs. -/
inductive Sym
  /-- a literal -/
  | rat (n : ℤ) (d : ℕ)
  /-- `C[k]`: a coefficient given by the caller -/
  | inp (k : ℕ)
  /-- a parameter `p[k]` -/
  | par (k : ℕ)
  /-- an entry of the CKM matrix -/
  | ckm (i j : ℕ)
  /-- `math.pi` -/
  | pi
  | sqrt (a : Sym)
  | add (a b : Sym)
  | sub (a b : Sym)
  | mul (a b : Sym)
  | div (a b : Sym)
  | neg (a : Sym)
  | conj (a : Sym)
  | re (a : Sym)
  | im (a : Sym)
  deriving DecidableEq

/-- The inputs of a translation. -/
structure Inputs where
  /-- the coefficients passed by the caller (0 for the missing ones) -/
  inp : ℕ → ℂ
  /-- the parameters returned by `get_parameters` -/
  par : ℕ → ℝ
  /-- the CKM matrix returned by `ckmutil.ckm.ckm_tree` -/
  ckm : ℕ → ℕ → ℂ

/-- the value of a formula -/
noncomputable def Sym.eval (I : Inputs) : Sym → ℂ
  | .rat n d => (n : ℂ) / (d : ℂ)
  | .inp k => I.inp k
  | .par k => (I.par k : ℂ)
  | .ckm i j => I.ckm i j
  | .pi => (Real.pi : ℂ)
  | .sqrt a => ((Real.sqrt (a.eval I).re : ℝ) : ℂ)
  | .add a b => a.eval I + b.eval I
  | .sub a b => a.eval I - b.eval I
  | .mul a b => a.eval I * b.eval I
  | .div a b => a.eval I / b.eval I
  | .neg a => - a.eval I
  | .conj a => (starRingEnd ℂ) (a.eval I)
  | .re a => (((a.eval I).re : ℝ) : ℂ)
  | .im a => (((a.eval I).im : ℝ) : ℂ)

/-! ## Values -/

/-- A Python value. -/
inductive Val
  /-- a float or complex number -/
  | num (s : Sym)
  | int (n : ℤ)
  | str (s : ℕ)
  | bool (b : Bool)
  | none
  /-- a list or tuple -/
  | list (l : List Val)
  /-- a dictionary with string keys -/
  | dict (l : List (ℕ × Val))
  /-- a dictionary built by adding items to `{}`; the order of the items is lost -/
  | big (t : DTree Val)
  /-- a one-dimensional NumPy array -/
  | vec (l : List Sym)
  /-- the dictionary of arrays returned by `JMS_to_array` for the dictionary passed by the caller -/
  | arrays
  /-- one of these arrays -/
  | array (k : ℕ)
  /-- the CKM matrix -/
  | ckm
  /-- the dictionary of parameters -/
  | params
  /-- the dictionary of coefficients passed by the caller -/
  | inputs

inductive PyErr
  | keyError | valueError | typeError | nameError | indexError | assertionError | nan
  deriving DecidableEq

abbrev Res := Except PyErr

/-- sequencing -/
def andThen {α β : Type} (x : Res α) (f : α → Res β) : Res β :=
  match x with
  | .ok a => f a
  | .error e => .error e

@[inherit_doc] infixl:55 " >>- " => andThen

/-! ## Syntax -/

inductive Op
  | add | sub | mul | div | pow | mod | eq | isin | notin | is
  deriving DecidableEq

mutual
inductive Expr
  | int (n : ℕ)
  | flt (n d : ℕ)
  | str (s : ℕ)
  | bool (b : Bool)
  | none
  | var (x : ℕ)
  | bin (op : Op) (a b : Expr)
  | and (a b : Expr)
  | or (a b : Expr)
  | neg (a : Expr)
  | list (l : Exprs)
  | dict (l : Pairs)
  | idx (a i : Expr)
  | slice (a lo hi : Expr)
  | rev (a : Expr)
  | cond (c a b : Expr)
  | fstr (l : Exprs)
  | call (f : ℕ) (args : Exprs)
  | meth (a : Expr) (m : ℕ) (args : Exprs)
  /-- `tuple(body for x in it)` -/
  | comp (x : ℕ) (it body : Expr)
  /-- `{kb: vb for k, v in it.items()}` -/
  | dcomp (k v : ℕ) (it kb vb : Expr)
inductive Exprs
  | nil
  | cons (e : Expr) (l : Exprs)
inductive Pairs
  | nil
  | cons (k v : Expr) (l : Pairs)
end

mutual
inductive Stmt
  | assign (x : ℕ) (e : Expr)
  | unpack (xs : List ℕ) (e : Expr)
  | setItem (d : ℕ) (k e : Expr)
  | del (d : ℕ) (k : Expr)
  | update (d : ℕ) (e : Expr)
  | ite (c : Expr) (t e : Stmts)
  | for (x : ℕ) (it : Expr) (body : Stmts)
  | for2 (k v : ℕ) (it : Expr) (body : Stmts)
  | ret (e : Expr)
  | raise
  | assert (e : Expr)
  | pass
inductive Stmts
  | nil
  | cons (s : Stmt) (l : Stmts)
end

/-- a function: name, parameters, body -/
structure Fn where
  name : ℕ
  params : List ℕ
  body : Stmts

syntax "es![" term,* "]" : term
macro_rules
  | `(es![]) => `(Exprs.nil)
  | `(es![$x]) => `(Exprs.cons $x Exprs.nil)
  | `(es![$x, $xs,*]) => `(Exprs.cons $x es![$xs,*])

syntax kvPair := term " : " term
syntax "kv![" kvPair,* "]" : term
macro_rules
  | `(kv![]) => `(Pairs.nil)
  | `(kv![$k:term : $v:term]) => `(Pairs.cons $k $v Pairs.nil)
  | `(kv![$k:term : $v:term, $xs,*]) => `(Pairs.cons $k $v kv![$xs,*])

syntax "st![" term,* "]" : term
macro_rules
  | `(st![]) => `(Stmts.nil)
  | `(st![$x]) => `(Stmts.cons $x Stmts.nil)
  | `(st![$x, $xs,*]) => `(Stmts.cons $x st![$xs,*])

/-! ## Operations on values -/

/-- lookup in an association list with string keys -/
def look {α : Type} (k : ℕ) : List (ℕ × α) → Option α
  | [] => none
  | (k', v) :: l => bif Nat.beq k' k then some v else look k l

/-- `d[k] = v` -/
def put {α : Type} (k : ℕ) (v : α) : List (ℕ × α) → List (ℕ × α)
  | [] => [(k, v)]
  | (k', v') :: l => bif Nat.beq k' k then (k, v) :: l else (k', v') :: put k v l

/-- `del d[k]` -/
def del {α : Type} (k : ℕ) : List (ℕ × α) → List (ℕ × α)
  | [] => []
  | (k', v') :: l => bif Nat.beq k' k then l else (k', v') :: del k l

/-- the items of a dictionary -/
def Val.items : Val → Option (List (ℕ × Val))
  | .dict l => some l
  | .big t => some t.toList
  | _ => Option.none

noncomputable def mkStr (s : ℕ) : Res Val := forceN s fun s => .ok (.str s)

/-- a number used in arithmetic -/
def Val.sym : Val → Option Sym
  | .num s => some s
  | .int n => some (.rat n 1)
  | _ => Option.none

def arith (f : Sym → Sym → Sym) (a b : Val) : Res Val :=
  match a.sym with
  | some x =>
    match b with
    | .vec l => .ok (.vec (l.map (f x)))
    | b =>
      match b.sym with
      | some y => .ok (.num (f x y))
      | none => .error .typeError
  | none => .error .typeError

/-- `a == b` for strings and integers -/
def Val.eq : Val → Val → Option Bool
  | .str a, b => match b with
    | .str b => some (Nat.beq a b)
    | _ => Option.none
  | .int a, b => match b with
    | .int b => some (decide (a = b))
    | _ => Option.none
  | _, _ => Option.none

/-- `a in l` for lists of strings and integers -/
def isIn (a : Val) : List Val → Res Bool
  | [] => .ok false
  | b :: l =>
    match a.eq b with
    | some r => bif r then .ok true else isIn a l
    | none => .error .typeError

def contains (a b : Val) : Res Bool :=
  match b with
  | .list l => isIn a l
  | .dict l =>
    match a with
    | .str a => .ok (look a l).isSome
    | _ => .error .typeError
  | _ => .error .typeError

/-- `a ** n` for an integer literal `n` -/
def powSym (a : Sym) : ℕ → Sym
  | 0 => .rat 1 1
  | 1 => a
  | n + 2 => .mul (powSym a (n + 1)) a

/-- `a + b` -/
noncomputable def addVal (a b : Val) : Res Val :=
  match a with
  | .str x =>
    match b with
    | .str y => mkStr (sapp x y)
    | _ => .error .typeError
  | .list x =>
    match b with
    | .list y => .ok (.list (x ++ y))
    | _ => .error .typeError
  | .int x =>
    match b with
    | .int y => .ok (.int (x + y))
    | b => arith .add (.int x) b
  | a => arith .add a b

/-- `a - b` -/
def subVal (a b : Val) : Res Val :=
  match a with
  | .int x =>
    match b with
    | .int y => .ok (.int (x - y))
    | b => arith .sub (.int x) b
  | a => arith .sub a b

/-- `a * b` -/
noncomputable def mulVal (a b : Val) : Res Val :=
  match a with
  | .int x =>
    match b with
    | .str y => mkStr (srep x.toNat y)
    | .int y => .ok (.int (x * y))
    | b => arith .mul (.int x) b
  | a => arith .mul a b

/-- `a ** b` for natural exponents -/
def powVal (a b : Val) : Res Val :=
  match b with
  | .int n =>
    bif decide (n < 0) then .error .typeError else
    match a with
    | .int x => .ok (.int (x ^ n.toNat))
    | .num x => .ok (.num (powSym x n.toNat))
    | _ => .error .typeError
  | _ => .error .typeError

/-- `a % b` -/
def modVal (a b : Val) : Res Val :=
  match a with
  | .int x =>
    match b with
    | .int y => .ok (.int (x % y))
    | _ => .error .typeError
  | _ => .error .typeError

noncomputable def binop (op : Op) (a b : Val) : Res Val :=
  match op with
  | .add => addVal a b
  | .sub => subVal a b
  | .mul => mulVal a b
  | .div => arith .div a b
  | .pow => powVal a b
  | .mod => modVal a b
  | .eq =>
    match a.eq b with
    | some r => .ok (.bool r)
    | none => .error .typeError
  | .isin => contains a b >>- fun r => .ok (.bool r)
  | .notin => contains a b >>- fun r => .ok (.bool (!r))
  | .is =>
    -- only `x is None`
    match a with
    | .none => .ok (.bool true)
    | _ => .ok (.bool false)

/-- the value of a condition -/
def truth : Val → Res Bool
  | .bool b => .ok b
  | _ => .error .typeError

/-- a string -/
def asStr : Val → Res ℕ
  | .str s => .ok s
  | _ => .error .typeError

def negVal : Val → Res Val
  | .num s => .ok (.num (.neg s))
  | .int n => .ok (.int (-n))
  | _ => .error .typeError

/-- Python index `i` into a sequence of length `n` (negative indices count from the end) -/
def seqIdx (n : ℕ) (i : ℤ) : Option ℕ :=
  match i with
  | .ofNat i => bif i.blt n then some i else none
  | .negSucc i => bif i.blt n then some (n - (i + 1)) else none

/-- indices into an array with 3 entries per direction (entries outside: `IndexError`; negative
indices count from the end) -/
def arrIdx : List Val → Option (List ℕ)
  | [] => some []
  | .int i :: l =>
    match seqIdx 3 i, arrIdx l with
    | some i, some l => some (i :: l)
    | _, _ => none
  | _ :: _ => none

/-- methods without argument: `conj`, `copy`, `keys` -/
def method0 (a : Val) (m : ℕ) : Res Val :=
  match a with
  | .num s => bif Nat.beq m n!"conj" then .ok (.num (.conj s)) else .error .typeError
  | .int n => bif Nat.beq m n!"conj" then .ok (.int n) else .error .typeError
  | .dict l =>
    bif Nat.beq m n!"copy" then .ok (.dict l) else
    bif Nat.beq m n!"keys" then .ok (.list (l.map fun p => .str p.1)) else .error .typeError
  | _ => .error .typeError

/-- conjugate or negative of a value -/
def actVal : Jms.Act → Val → Res Val
  | .same, v => .ok v
  | .conj, v => method0 v n!"conj"
  | .neg, v => negVal v

/-- An entry of the array `k` of `JMS_to_array`: the coefficient from which `JMS_to_array` fills it.
Simplification: an entry that stays NaN raises here. -/
noncomputable def arrEntry (k : ℕ) (idx : List ℕ) : Res Val :=
  match source k idx with
  | none => .error .nan
  | some (a, c) => actVal a (.num (.inp c))

/-- an item, or `KeyError` -/
def orKeyError : Option Val → Res Val
  | some v => .ok v
  | none => .error .keyError

/-- `l[i]` -/
def listIndex (l : List Val) (i : ℤ) : Res Val :=
  match seqIdx l.length i with
  | some j =>
    match l[j]? with
    | some v => .ok v
    | none => .error .indexError
  | none => .error .indexError

/-- `s[i]` -/
noncomputable def strIndex (s : ℕ) (i : ℤ) : Res Val :=
  match seqIdx (slen s) i with
  | some j => mkStr (schar s j)
  | none => .error .indexError

/-- the indices into an array -/
def tupleIdx : Val → Res (List ℕ)
  | .list l =>
    match arrIdx l with
    | some l => .ok l
    | none => .error .indexError
  | _ => .error .typeError

/-- an integer -/
def asInt : Val → Res ℤ
  | .int n => .ok n
  | _ => .error .typeError

/-- `a[i]` -/
noncomputable def index (a i : Val) : Res Val :=
  match a with
  | .dict l => asStr i >>- fun k => orKeyError (look k l)
  | .big t => asStr i >>- fun k => orKeyError (forceN (hash k) fun h => t.get h k)
  | .list l => asInt i >>- listIndex l
  | .str s => asInt i >>- strIndex s
  | .arrays => asStr i >>- fun k => .ok (.array k)
  | .array k => tupleIdx i >>- arrEntry k
  | .ckm => tupleIdx i >>- fun
    | [i, j] => .ok (.num (.ckm i j))
    | _ => .error .indexError
  | .params => asStr i >>- fun k => .ok (.num (.par k))
  | .inputs => asStr i >>- fun k => .ok (.num (.inp k))
  | _ => .error .typeError

/-- bound of a slice -/
def bound (n : ℕ) (dflt : ℕ) : Val → Option ℕ
  | .none => some dflt
  | .int (.ofNat i) => some (nmin i n)
  | .int (.negSucc i) => some (n - (i + 1))
  | _ => none

noncomputable def slice (a lo hi : Val) : Res Val :=
  match a with
  | .str s =>
    match bound (slen s) 0 lo, bound (slen s) (slen s) hi with
    | some l, some h => forceN (stake s h) fun t => mkStr (sdrop t (nmin l h))
    | _, _ => .error .typeError
  | .list s =>
    match bound s.length 0 lo, bound s.length s.length hi with
    | some l, some h => .ok (.list ((s.take h).drop l))
    | _, _ => .error .typeError
  | _ => .error .typeError

noncomputable def revVal : Val → Res Val
  | .str s => mkStr (srev s)
  | .list l => .ok (.list l.reverse)
  | _ => .error .typeError

/-- `str(v)` as used in f-strings -/
noncomputable def strVal : Val → Res ℕ
  | .str s => .ok s
  | .int n => .ok (intStr n)
  | _ => .error .typeError

noncomputable def concatVals : List Val → Res ℕ
  | [] => .ok 1
  | v :: l => strVal v >>- fun a => concatVals l >>- fun b => .ok (sapp a b)

/-- the elements over which `for x in v` iterates -/
def iter : Val → Res (List Val)
  | .list l => .ok l
  | .dict l => .ok (l.map fun p => .str p.1)
  | .str s => .ok ((schars s).map fun c => .str (256 + c))
  | _ => .error .typeError

/-- methods with one argument: `s.find(c)` -/
def method1 (a : Val) (m : ℕ) (b : Val) : Res Val :=
  bif Nat.beq m n!"find" then asStr a >>- fun s => asStr b >>- fun c => .ok (.int (sfind s c 0))
  else .error .typeError

/-- methods with two arguments: `s.find(c, start)`, `s.replace(p, '')`, `C.get(k, 0)` -/
noncomputable def method2 (a : Val) (m : ℕ) (b c : Val) : Res Val :=
  bif Nat.beq m n!"find" then
    asStr a >>- fun s => asStr b >>- fun x => asInt c >>- fun
    | .ofNat st => .ok (.int (sfind s x st))
    | .negSucc _ => .error .typeError
  else bif Nat.beq m n!"replace" then
    asStr a >>- fun s => asStr b >>- fun x => asStr c >>- fun y =>
    bif Nat.beq y 1 then mkStr (sremove s x) else .error .typeError
  else bif Nat.beq m n!"get" then
    match a with
    | .inputs =>
      asStr b >>- fun k => asInt c >>- fun z =>
      bif decide (z = 0) then .ok (.num (.inp k)) else .error .typeError
    | _ => .error .typeError
  else .error .typeError

/-- methods of values -/
noncomputable def method (a : Val) (m : ℕ) (args : List Val) : Res Val :=
  match args with
  | [] => method0 a m
  | [b] => method1 a m b
  | [b, c] => method2 a m b c
  | _ => .error .typeError

/-! ## Evaluation -/

abbrev Env := List (ℕ × Val)

/-- what the functions refer to: the functions defined before, and the ones imported -/
abbrev Funs := ℕ → List Val → Res Val

/-- iterate over the elements of a list, binding `x` -/
def compList (f : Val → Res Val) : List Val → Res (List Val)
  | [] => .ok []
  | v :: l => f v >>- fun r => compList f l >>- fun rs => .ok (r :: rs)

/-- `{k: … for k, v in d.items()}` for a list of items -/
def compDict (f : ℕ → Val → Res (ℕ × Val)) : List (ℕ × Val) → List (ℕ × Val) → Res (List (ℕ × Val))
  | [], acc => .ok acc.reverse
  | (k, v) :: l, acc => f k v >>- fun r => compDict f l (r :: acc)

/-- the same for a dictionary given by a tree, if the keys are kept -/
def compTree (f : ℕ → Val → Res (ℕ × Val)) : DTree Val → Res (DTree Val)
  | .leaf => .ok .leaf
  | .node l h k v r =>
    compTree f l >>- fun l => f k v >>- fun p => compTree f r >>- fun r => .ok (.node l h k p.2 r)

/-- `{kb: vb for k, v in d.items()}`; on a dictionary given by a tree only if `kb` is `k` -/
def compItems (keep : Bool) (f : ℕ → Val → Res (ℕ × Val)) (d : Val) : Res Val :=
  match d with
  | .dict l => compDict f l [] >>- fun r => .ok (.dict r)
  | .big t => bif keep then compTree f t >>- fun r => .ok (.big r) else .error .typeError
  | _ => .error .typeError

/-- the expression is the variable `x` -/
def isVar (x : ℕ) : Expr → Bool
  | .var y => Nat.beq x y
  | _ => false

/-- the value of a dictionary display; `{}` is the start of a dictionary that is filled later -/
def mkDict (l : List (ℕ × Val)) : Res Val :=
  match l with
  | [] => .ok (.big .leaf)
  | p :: l => .ok (.dict (p :: l))

mutual
noncomputable def evalE (F : Funs) : Expr → Env → Res Val
  | .int n, _ => .ok (.int n)
  | .flt n d, _ => .ok (.num (.rat n d))
  | .str s, _ => .ok (.str s)
  | .bool b, _ => .ok (.bool b)
  | .none, _ => .ok .none
  | .var x, env =>
    match look x env with
    | some v => .ok v
    | none => .error .nameError
  | .bin op a b, env =>
    evalE F a env >>- fun x => evalE F b env >>- fun y => binop op x y
  | .and a b, env => evalE F a env >>- truth >>- fun r => bif r then evalE F b env else .ok (.bool false)
  | .or a b, env => evalE F a env >>- truth >>- fun r => bif r then .ok (.bool true) else evalE F b env
  | .neg a, env => evalE F a env >>- negVal
  | .list l, env => evalEs F l env >>- fun l => .ok (.list l)
  | .dict l, env => evalPs F l env [] >>- mkDict
  | .idx a i, env => evalE F a env >>- fun x => evalE F i env >>- fun y => index x y
  | .slice a lo hi, env =>
    evalE F a env >>- fun x => evalE F lo env >>- fun l => evalE F hi env >>- fun h => slice x l h
  | .rev a, env => evalE F a env >>- revVal
  | .cond c a b, env =>
    evalE F c env >>- truth >>- fun r => bif r then evalE F a env else evalE F b env
  | .fstr l, env => evalEs F l env >>- fun vs => concatVals vs >>- mkStr
  | .call f args, env => evalEs F args env >>- fun vs => F f vs
  | .meth a m args, env => evalE F a env >>- fun x => evalEs F args env >>- fun vs => method x m vs
  | .comp x it body, env =>
    evalE F it env >>- fun v => iter v >>- fun l =>
    compList (fun v => evalE F body ((x, v) :: env)) l >>- fun r => .ok (.list r)
  | .dcomp k v it kb vb, env =>
    evalE F it env >>-
    compItems (isVar k kb) (fun key val =>
        evalE F kb ((k, .str key) :: (v, val) :: env) >>- fun kk =>
        evalE F vb ((k, .str key) :: (v, val) :: env) >>- fun vv =>
        asStr kk >>- fun s => .ok (s, vv))
noncomputable def evalEs (F : Funs) : Exprs → Env → Res (List Val)
  | .nil, _ => .ok []
  | .cons e l, env => evalE F e env >>- fun v => evalEs F l env >>- fun vs => .ok (v :: vs)
noncomputable def evalPs (F : Funs) : Pairs → Env → List (ℕ × Val) → Res (List (ℕ × Val))
  | .nil, _, acc => .ok acc
  | .cons k v l, env, acc =>
    evalE F k env >>- asStr >>- fun s => evalE F v env >>- fun x => evalPs F l env (put s x acc)
end

/-- go on with the next statement unless the function has returned -/
def contWith (next : Env → Res (Env × Option Val)) (r : Env × Option Val) : Res (Env × Option Val) :=
  match r.2 with
  | none => next r.1
  | some v => .ok (r.1, some v)

/-- one loop: run the body for every element until it returns -/
def loop (body : Val → Env → Res (Env × Option Val)) : List Val → Env → Res (Env × Option Val)
  | [], env => .ok (env, none)
  | v :: l, env => body v env >>- contWith (loop body l)

/-- bind several variables -/
def bindAll : List ℕ → List Val → Env → Res Env
  | [], [], env => .ok env
  | x :: xs, v :: vs, env => bindAll xs vs (put x v env)
  | _, _, _ => .error .valueError

/-- `d[k] = v` -/
noncomputable def setItem (d : Option Val) (k : ℕ) (v : Val) : Res Val :=
  match d with
  | none => .error .nameError
  | some d =>
    match d with
    | .dict l => .ok (.dict (put k v l))
    | .big t => forceT (forceN (hash k) fun h => t.put h k v) fun t => .ok (.big t)
    | _ => .error .typeError

/-- `del d[k]` -/
def delItem (d : Option Val) (k : ℕ) : Res Val :=
  match d with
  | none => .error .nameError
  | some d =>
    match d with
    | .dict l => orKeyError (look k l) >>- fun _ => .ok (.dict (del k l))
    | _ => .error .typeError

/-- `d.update(v)` -/
noncomputable def updateVal (d : Option Val) (v : Val) : Res Val :=
  match d with
  | none => .error .nameError
  | some d =>
    match d with
    | .big t =>
      match v.items with
      | some l => forceT (t.putAll l) fun t => .ok (.big t)
      | none => .error .typeError
    | _ => .error .typeError

/-- `d.items()` -/
def pairs : Val → Res (List Val)
  | .dict l => .ok (l.map fun p => .list [.str p.1, p.2])
  | _ => .error .typeError

/-- a pair -/
def pair : Val → Res (Val × Val)
  | .list l =>
    match l with
    | [a, b] => .ok (a, b)
    | _ => .error .typeError
  | _ => .error .typeError

mutual
noncomputable def evalS (F : Funs) : Stmt → Env → Res (Env × Option Val)
  | .assign x e, env => evalE F e env >>- fun v => .ok (put x v env, none)
  | .unpack xs e, env =>
    evalE F e env >>- fun v => iter v >>- fun vs => bindAll xs vs env >>- fun env => .ok (env, none)
  | .setItem d k e, env =>
    evalE F k env >>- asStr >>- fun k => evalE F e env >>- fun v =>
    setItem (look d env) k v >>- fun w => .ok (put d w env, none)
  | .del d k, env =>
    evalE F k env >>- asStr >>- fun k => delItem (look d env) k >>- fun w => .ok (put d w env, none)
  | .update d e, env =>
    evalE F e env >>- fun v => updateVal (look d env) v >>- fun w => .ok (put d w env, none)
  | .ite c t e, env =>
    evalE F c env >>- truth >>- fun r => bif r then evalSs F t env else evalSs F e env
  | .for x it body, env =>
    evalE F it env >>- fun v => iter v >>- fun l =>
    loop (fun v env => evalSs F body (put x v env)) l env
  | .for2 k v it body, env =>
    evalE F it env >>- pairs >>- fun l =>
    loop (fun p env => pair p >>- fun q => evalSs F body (put v q.2 (put k q.1 env))) l env
  | .ret e, env => evalE F e env >>- fun v => .ok (env, some v)
  | .raise, _ => .error .valueError
  | .assert e, env =>
    evalE F e env >>- truth >>- fun r => bif r then .ok (env, none) else .error .assertionError
  | .pass, env => .ok (env, none)
noncomputable def evalSs (F : Funs) : Stmts → Env → Res (Env × Option Val)
  | .nil, env => .ok (env, none)
  | .cons s l, env =>
    evalS F s env >>- contWith (evalSs F l)
end

/-- a call of a function -/
noncomputable def callFn (F : Funs) (globals : Env) (f : Fn) (args : List Val) : Res Val :=
  bindAll f.params args [] >>- fun env =>
  evalSs F f.body (env ++ globals) >>- fun r => .ok (r.2.getD .none)

/-- the functions of a module, defined one after the other (each one refers to earlier ones only) -/
noncomputable def link (base : Funs) (globals : Env) : List Fn → Funs
  | [] => base
  | f :: l => fun g args =>
    bif Nat.beq g f.name then callFn (link base globals l) globals f args
    else link base globals l g args

end Verif.Py
