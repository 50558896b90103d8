import Mathlib.Analysis.SpecialFunctions.Complex.Arg
import Mathlib.Analysis.InnerProductSpace.PiL2
import Verif.Model.Bicycle
import Verif.Model.ParameterSets

/-!
# models.py

The models: parameter overrides, the matrices, eigenvalues, simulations and the data that
the plot methods draw.  Dictionaries live in a heap, so that the effect of
`benchmark_par_to_canonical`, which writes into its argument, on the stored parameter set can
be stated.  Outside the model: solvers (`numpy.linalg.eig`, `scipy.integrate.solve_ivp`), the
generated `eval_linear` (modelled in `Model/RiderLean`) and dtk's
`pitch_from_roll_and_steer` are parameters; colours, axes and labels are left out.
-/

namespace BP

open Matrix

/-! ## A heap of dictionaries -/

/-- The value of a parameter while a model is evaluated: one number or an array of numbers. (models.py:29-75) -/
inductive MVal where
  | num (x : SVal)
  | arr (xs : List SVal)

/-- The value given to a keyword argument: something `numpy.isscalar` accepts and `float`
converts, something with a length and numbers in it, or something of neither kind (`None`, a
0-d array).  Simplification: strings, complex scalars and nested arrays are not modelled. (models.py:29-75) -/
inductive OVal where
  | num (x : SVal)
  | arr (xs : List SVal)
  | unsized

/-- The dictionaries that exist, in order of creation; a reference is a position. (models.py:29-75) -/
abbrev Heap := List (Dict MVal)

/-- Code that may raise, and changes dictionaries; the changes made before an exception
stay. (models.py:29-75) -/
def HM (α : Type) := Heap → Except PyErr α × Heap

namespace HM

variable {α β : Type}

/-- Returning a value. (models.py:29-75) -/
def pure (a : α) : HM α := fun h => (.ok a, h)

/-- Running one piece of code after the other. (models.py:29-75) -/
def bind (f : HM α) (k : α → HM β) : HM β := fun h =>
  match f h with
  | (.ok a, h') => k a h'
  | (.error e, h') => (.error e, h')

/-- Sequences of statements (models.py:29-75). -/
instance : Monad HM where
  pure := HM.pure
  bind := HM.bind

/-- `raise`. (models.py:29-75) -/
def raise (e : PyErr) : HM α := fun h => (.error e, h)

/-- A value or an exception. (models.py:29-75) -/
def ofExcept : Except PyErr α → HM α
  | .ok a => HM.pure a
  | .error e => HM.raise e

/-- A new dictionary. (models.py:29-75) -/
def alloc (d : Dict MVal) : HM ℕ := fun h => (.ok h.length, h ++ [d])

/-- The content of a dictionary. (models.py:29-75) -/
def load (r : ℕ) : HM (Dict MVal) := fun h => (.ok (h.getD r []), h)

/-- Replacing the content of a dictionary. (models.py:29-75) -/
def store (r : ℕ) (d : Dict MVal) : HM Unit := fun h => (.ok (), h.set r d)

/-- `for x in xs: a = f(a, x)`. (models.py:29-75) -/
def loop {γ : Type} (f : β → γ → HM β) : β → List γ → HM β
  | b, [] => HM.pure b
  | b, x :: xs => HM.bind (f b x) fun b' => loop f b' xs

/-- `[f(x) for x in xs]`. (models.py:29-75) -/
def collect {γ : Type} (f : γ → HM β) : List γ → HM (List β)
  | [] => HM.pure []
  | x :: xs => HM.bind (f x) fun b => HM.bind (collect f xs) fun bs => HM.pure (b :: bs)

end HM

/-! ## Parameter overrides, models.py:29-72 -/

/-- models.py:57-72, one pass of the loop on the copy `r`; the state is
`(array_keys, array_len)`.  The warning about an unknown key is not modelled. -/
def overrideStep (r : ℕ) (st : List String × Option ℕ) (kv : String × OVal) :
    HM (List String × Option ℕ) := do
  let par ← HM.load r
  if par.has kv.1 then
    match kv.2 with
    | .num x => do
      HM.store r (par.set kv.1 (.num ⟨.pyFloat, x.val⟩))
      HM.pure st
    | .unsized => HM.raise .typeError
    | .arr xs =>
      if xs.length = st.2.getD xs.length then do
        HM.store r (par.set kv.1 (.arr xs))
        HM.pure (st.1 ++ [kv.1], some (st.2.getD xs.length))
      else HM.raise .valueError
  else HM.pure st

/-- What `_parse_parameter_overrides` returns: a reference to the copy, `array_keys`,
`array_len`. (models.py:29-75) -/
structure Parsed where
  par : ℕ
  arrayKeys : List String
  arrayLen : Option ℕ

/-- models.py:52-74; `s` refers to `self.parameter_set.parameters`. -/
def parseOverrides (s : ℕ) (ov : Dict OVal) : HM Parsed := do
  let stored ← HM.load s
  let r ← HM.alloc stored
  let st ← HM.loop (overrideStep r) ([], none) ov
  HM.pure ⟨r, st.1, st.2⟩

/-! ## Reading values -/

/-- `par[key]` used as a number. (models.py:625-733) -/
def MVal.asNum : MVal → Except PyErr SVal
  | .num x => .ok x
  | .arr _ => .error .typeError

/-- `par[key][i]`. (models.py:625-733) -/
def MVal.item (i : ℕ) : MVal → Except PyErr SVal
  | .num _ => .error .typeError
  | .arr xs => match xs[i]? with
    | some x => .ok x
    | none => .error .indexError

/-- `par[key]` where a number is expected. (models.py:625-733) -/
def numOf (par : Dict MVal) (k : String) : Except PyErr SVal := (par.get k).bind MVal.asNum

/-- `par[key][i]`. (models.py:625-733) -/
def itemOf (par : Dict MVal) (k : String) (i : ℕ) : Except PyErr SVal :=
  (par.get k).bind (MVal.item i)

/-- `par[key][i] if key in array_keys else par[key]`, models.py:802-809, 816-823. -/
def pick (par : Dict MVal) (keys : List String) (k : String) (i : ℕ) : Except PyErr SVal :=
  if k ∈ keys then itemOf par k i else numOf par k

/-- The entries of a dictionary that are single numbers. (models.py:625-733) -/
def scal : Dict MVal → Dict ℝ
  | [] => []
  | (k, .num x) :: d => (k, x.val) :: scal d
  | (_, .arr _) :: d => scal d

/-- `benchmark_par_to_canonical(p)` (bicycle.py:78-170) applied to the dictionary `r`: it
writes `IRzz` and `IFzz` into it.  Entries that are arrays are treated as missing; the
callers never leave one under a key that is read. -/
noncomputable def benchmarkOn (r : ℕ) : HM Canon := do
  let d ← HM.load r
  match Dict.require (scal d) canonKeysBefore with
  | .error e => HM.raise e
  | .ok () => do
    let d1 := d.set "IRzz" (.num ⟨.pyFloat, Dict.getD (scal d) "IRxx" 0⟩)
    let d2 := d1.set "IFzz" (.num ⟨.pyFloat, Dict.getD (scal d1) "IFxx" 0⟩)
    HM.store r d2
    match Dict.require (scal d2) canonKeysAfter with
    | .error e => HM.raise e
    | .ok () => HM.pure (Bench.ofDict (scal d2)).canon

/-! ## The Whipple-Carvallo model, models.py:556-1040 -/

/-- An array of shape `(r, c)` or of shape `(n, r, c)`. (models.py:625-828) -/
inductive Stack (α : Type) where
  | one (a : α)
  | many (as : List α)

/-- models.py:705-712 -/
def canonDeps : List String :=
  ["IBxx", "IBxz", "IByy", "IBzz", "IFxx", "IFyy", "IHxx", "IHxz", "IHyy", "IHzz",
   "IRxx", "IRyy", "c", "lam", "mB", "mF", "mH", "mR", "rF", "rR", "w",
   "xB", "xH", "zB", "zH"]

/-- models.py:727-728: `for key in array_keys: mutable_par[key] = par[key][i]`. -/
def setSlice (par m : ℕ) (i : ℕ) (_ : Unit) (key : String) : HM Unit := do
  let d ← HM.load par
  let x ← HM.ofExcept (itemOf d key i)
  let dm ← HM.load m
  HM.store m (dm.set key (.num x))

/-- models.py:726-730, one pass of the loop over `range(n)`. -/
noncomputable def canonSlice (par m : ℕ) (keys : List String) (i : ℕ) : HM Canon := do
  HM.loop (setSlice par m i) () keys
  benchmarkOn m

/-- models.py:699-733.  The four arrays are returned as one array of quadruples. -/
noncomputable def formReducedCanonicalMatrices (s : ℕ) (ov : Dict OVal) :
    HM (Stack Canon) := do
  let p ← parseOverrides s ov
  let d ← HM.load p.par
  let m ← HM.alloc d
  if p.arrayKeys.any (· ∈ canonDeps) then do
    let cs ← HM.collect (canonSlice p.par m p.arrayKeys) (List.range (p.arrayLen.getD 0))
    HM.pure (.many cs)
  else do
    let c ← benchmarkOn p.par
    HM.pure (.one c)

/-- The pair `(A, B)`. (models.py:735-828) -/
abbrev StateSpace := Matrix (Fin 4) (Fin 4) ℝ × Matrix (Fin 4) (Fin 2) ℝ

/-- `ab_matrix(M, C1, K0, K2, v, g)`, bicycle.py:8-75. -/
noncomputable def abOf (c : Canon) (v g : ℝ) : StateSpace := (abA c.M c.C1 c.K0 c.K2 v g, abB c.M)

/-- models.py:801-810 and 815-824: the slice `i`. -/
noncomputable def abSlice (par : Dict MVal) (keys : List String) (ci : Canon × ℕ) :
    Except PyErr StateSpace :=
  (pick par keys "g" ci.2).bind fun g =>
    (pick par keys "v" ci.2).map fun v => abOf ci.1 v.val g.val

/-- models.py:791-828. -/
noncomputable def formStateSpaceMatrices (s : ℕ) (ov : Dict OVal) : HM (Stack StateSpace) := do
  let p ← parseOverrides s ov
  let c ← formReducedCanonicalMatrices s ov
  let par ← HM.load p.par
  match c with
  | .many cs => do
    let r ← HM.ofExcept (cs.zipIdx.mapM (abSlice par p.arrayKeys))
    HM.pure (.many r)
  | .one c =>
    if "v" ∈ p.arrayKeys ∨ "g" ∈ p.arrayKeys then do
      let r ← HM.ofExcept (((List.range (p.arrayLen.getD 0)).map fun i => (c, i)).mapM
        (abSlice par p.arrayKeys))
      HM.pure (.many r)
    else do
      let v ← HM.ofExcept (numOf par "v")
      let g ← HM.ofExcept (numOf par "g")
      HM.pure (.one (abOf c v.val g.val))

/-! ## Full state feedback, models.py:1042-1230 -/

/-- Rounding towards zero, what storing a float in an integer array does. (models.py:1080-1162) -/
noncomputable def truncZ (x : ℝ) : ℝ := if 0 ≤ x then (⌊x⌋ : ℤ) else (⌈x⌉ : ℤ)

/-- models.py:1129-1132: `par[p][0] if p in arr_keys else par[p]`. -/
def firstGain (par : Dict MVal) (keys : List String) (k : String) : Except PyErr SVal :=
  pick par keys k 0

/-- The array `[[..], [..]]` made of the eight gains, models.py:1129-1132, 1141-1142. -/
def gainMatrix (k : List ℝ) : Matrix (Fin 2) (Fin 4) ℝ :=
  !![k.getD 0 0, k.getD 1 0, k.getD 2 0, k.getD 3 0;
     k.getD 4 0, k.getD 5 0, k.getD 6 0, k.getD 7 0]

/-- models.py:1134-1139, entry of slice `i`: the tiled value, replaced when the gain is an
array.  `isInt` tells that the array of the first values has an integer type, so that what
is stored in it is truncated. -/
noncomputable def gainEntry (par : Dict MVal) (keys : List String) (isInt : Bool) (i : ℕ)
    (kf : String × SVal) : Except PyErr ℝ :=
  if kf.1 ∈ keys then
    (itemOf par kf.1 i).map fun x => if isInt then truncZ x.val else x.val
  else .ok kf.2.val

/-- models.py:1125-1142: the gain matrix of each slice, or one gain matrix. -/
noncomputable def gainStack (par : Dict MVal) (keys : List String) (n : ℕ) :
    Except PyErr (Stack (Matrix (Fin 2) (Fin 4) ℝ)) :=
  if keys.any (· ∈ gainNames) then
    (gainNames.mapM (firstGain par keys)).bind fun firsts =>
      ((List.range n).mapM fun i =>
        ((gainNames.zip firsts).mapM
          (gainEntry par keys (firsts.all fun x => decide (x.ty = .other)) i)).map
            gainMatrix).map .many
  else (gainNames.mapM (numOf par)).map fun ks => .one (gainMatrix (ks.map SVal.val))

/-- `X[i] if X.ndim == 3 else X`. (models.py:1148-1154) -/
def Stack.slice {α : Type} (i : ℕ) : Stack α → Except PyErr α
  | .one a => .ok a
  | .many as => match as[i]? with
    | some a => .ok a
    | none => .error .indexError

/-- `par[k] if np.isscalar(par[k]) else par[k][i]`, models.py:1152-1153. -/
def numOrItem (par : Dict MVal) (k : String) (i : ℕ) : Except PyErr SVal :=
  (par.get k).bind fun x => match x with
    | .num y => .ok y
    | .arr ys => (MVal.arr ys).item i

/-- models.py:1147-1157, one pass of the loop. -/
noncomputable def feedbackSlice (par : Dict MVal) (c : Stack Canon)
    (K : Stack (Matrix (Fin 2) (Fin 4) ℝ)) (i : ℕ) : Except PyErr StateSpace :=
  (c.slice i).bind fun ci =>
    (numOrItem par "v" i).bind fun v =>
      (numOrItem par "g" i).bind fun g =>
        (K.slice i).map fun Ki =>
          ((abOf ci v.val g.val).1 - (abOf ci v.val g.val).2 * Ki, (abOf ci v.val g.val).2)

/-- models.py:1113-1162. -/
noncomputable def formFeedbackMatrices (s : ℕ) (ov : Dict OVal) : HM (Stack StateSpace) := do
  let p ← parseOverrides s ov
  let c ← formReducedCanonicalMatrices s ov
  let par ← HM.load p.par
  let K ← HM.ofExcept (gainStack par p.arrayKeys (p.arrayLen.getD 0))
  if p.arrayKeys = [] then do
    let ci ← HM.ofExcept (c.slice 0)
    let v ← HM.ofExcept (numOf par "v")
    let g ← HM.ofExcept (numOf par "g")
    let Ki ← HM.ofExcept (K.slice 0)
    HM.pure (.one ((abOf ci v.val g.val).1 - (abOf ci v.val g.val).2 * Ki,
      (abOf ci v.val g.val).2))
  else do
    let r ← HM.ofExcept ((List.range (p.arrayLen.getD 0)).mapM (feedbackSlice par c K))
    HM.pure (.many r)

/-! ## The rider lean model, models.py:1236-1570 -/

/-- What `eval_linear` returns apart from `C` and `D`. (models.py:1292-1453) -/
abbrev Linear13 := Matrix (Fin 13) (Fin 13) ℝ × Matrix (Fin 13) (Fin 4) ℝ

/-- models.py:1401 -/
def aIdxs : List (Fin 13) := [0, 1, 2, 3, 5, 6, 7, 8, 9, 10, 11, 12]

/-- models.py:1402 -/
def bIdxs : List (Fin 4) := [0, 2, 3]

/-- models.py:1433-1434, 1451: `A_[a_idxs][:, a_idxs], B_[a_idxs][:, b_idxs]`. -/
def keepRows (l : Linear13) : Matrix (Fin 12) (Fin 12) ℝ × Matrix (Fin 12) (Fin 3) ℝ :=
  (fun i j => l.1 (aIdxs.getD i 0) (aIdxs.getD j 0), fun i j => l.2 (aIdxs.getD i 0) (bIdxs.getD j 0))

/-- models.py:1420-1432 and 1436-1448: `q[4]` is the pitch, `u[1]` the rear wheel rate, all
other coordinates, speeds and inputs are zero; the parameters are handed over in the order
of `par_strings`, those that are in `mutable_par` only.  `vi` is the speed. -/
noncomputable def linearAt (pitch : ℝ → ℝ → ℝ → ℝ → ℝ → ℝ → ℝ → ℝ)
    (evalLinear : (Fin 9 → ℝ) → (Fin 4 → ℝ) → (Fin 4 → ℝ) → List ℝ → Linear13)
    (d : Dict MVal) (vi : SVal) :
    Except PyErr (Matrix (Fin 12) (Fin 12) ℝ × Matrix (Fin 12) (Fin 3) ℝ) :=
  (numOf d "rf").bind fun rf => (numOf d "rr").bind fun rr =>
    (numOf d "d1").bind fun d1 => (numOf d "d2").bind fun d2 =>
      (numOf d "d3").bind fun d3 =>
        ((riderLeanStrings.keys.filter fun k => d.has k).mapM (numOf d)).map fun ps =>
          keepRows (evalLinear
            (Function.update 0 4 (pitch 0 0 rf.val rr.val d1.val d2.val d3.val))
            (Function.update 0 1 (-vi.val / rr.val)) 0 (ps.map SVal.val))

/-- models.py:1412-1419, one pass of the inner loop; the state is `vi`. -/
def setLeanSlice (par m : ℕ) (i : ℕ) (vi : Option SVal) (k : String) : HM (Option SVal) := do
  let d ← HM.load par
  let x ← HM.ofExcept (itemOf d k i)
  if k = "v" then HM.pure (some x)
  else do
    let dm ← HM.load m
    HM.store m (dm.set k (.num x))
    HM.pure vi

/-- models.py:1411-1434, one pass of the outer loop.  `v` is the value popped from the
dictionary.  Simplification: the code carries `vi` over from the previous pass; it is either
assigned in every pass or in none.  The `except TypeError` branch, for an array key that
holds a single number, cannot be reached and is left out. -/
noncomputable def leanSlice (pitch : ℝ → ℝ → ℝ → ℝ → ℝ → ℝ → ℝ → ℝ)
    (evalLinear : (Fin 9 → ℝ) → (Fin 4 → ℝ) → (Fin 4 → ℝ) → List ℝ → Linear13)
    (par m : ℕ) (keys : List String) (v : Option SVal) (i : ℕ) :
    HM (Matrix (Fin 12) (Fin 12) ℝ × Matrix (Fin 12) (Fin 3) ℝ) := do
  let vi ← HM.loop (setLeanSlice par m i) v keys
  let d ← HM.load m
  match vi with
  | none => HM.raise .typeError
  | some vi => HM.ofExcept (linearAt pitch evalLinear d vi)

/-- models.py:1390-1453. -/
noncomputable def formRiderLeanMatrices (pitch : ℝ → ℝ → ℝ → ℝ → ℝ → ℝ → ℝ → ℝ)
    (evalLinear : (Fin 9 → ℝ) → (Fin 4 → ℝ) → (Fin 4 → ℝ) → List ℝ → Linear13)
    (s : ℕ) (ov : Dict OVal) :
    HM (Stack (Matrix (Fin 12) (Fin 12) ℝ × Matrix (Fin 12) (Fin 3) ℝ)) := do
  let p ← parseOverrides s ov
  let d ← HM.load p.par
  let v ← HM.ofExcept (d.get "v")
  let m ← HM.alloc (d.erase "v")
  if p.arrayKeys = [] then do
    let vi ← HM.ofExcept v.asNum
    let dm ← HM.load m
    let r ← HM.ofExcept (linearAt pitch evalLinear dm vi)
    HM.pure (.one r)
  else do
    let r ← HM.collect (leanSlice pitch evalLinear p.par m p.arrayKeys v.asNum.toOption)
      (List.range (p.arrayLen.getD 0))
    HM.pure (.many r)

end BP
