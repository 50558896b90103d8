import Mathlib.Tactic.FieldSimp
import Mathlib.Tactic.Ring
import Mathlib.Tactic.Linarith
import Mathlib.Tactic.LinearCombination
import Mathlib.Tactic.NormNum
import Mathlib.Tactic.FinCases
import Mathlib.Data.List.Forall2
import Verif.Model.Inertia
import Verif.Props.Com
import Verif.Spec.RigidBody
import Verif.Props.Inertia

set_option linter.unusedSimpArgs false

/-!
# C32: principal-to-benchmark conversion; C77: part_com_lines
-/

namespace BP

open Real Matrix

/-- `I` is the inertia tensor of a body of mass `m` with radii of gyration `ka`, `ky`, `kb`
about the principal axes a, y, b; axis a is the x axis turned by `alpha` about the y axis. -/
def Spec.PrincipalTensor (I : Mat3) (m ka ky kb alpha : ℝ) : Prop :=
  I *ᵥ ![cos alpha, 0, -sin alpha] = (m * ka ^ 2) • ![cos alpha, 0, -sin alpha] ∧
  I *ᵥ ![0, 1, 0] = (m * ky ^ 2) • ![0, 1, 0] ∧
  I *ᵥ ![sin alpha, 0, cos alpha] = (m * kb ^ 2) • ![sin alpha, 0, cos alpha]

/-- The code's tensor has the given principal axes, and no other tensor has. -/
theorem C32_principal_tensor (m ka ky kb alpha : ℝ) (I : Mat3) :
    Spec.PrincipalTensor I m ka ky kb alpha ↔ I = principalInertia m ka ky kb alpha := by
  have hsc := sin_sq_add_cos_sq alpha
  constructor
  · rintro ⟨h1, h2, h3⟩
    ext i j
    have a := congrFun h1 i
    have b := congrFun h2 i
    have c := congrFun h3 i
    have e0 : I i 0 = cos alpha * (I i 0 * cos alpha + I i 2 * -sin alpha) +
        sin alpha * (I i 0 * sin alpha + I i 2 * cos alpha) := by
      linear_combination -(I i 0) * hsc
    have e2 : I i 2 = -sin alpha * (I i 0 * cos alpha + I i 2 * -sin alpha) +
        cos alpha * (I i 0 * sin alpha + I i 2 * cos alpha) := by
      linear_combination -(I i 2) * hsc
    simp only [Matrix.mulVec, dotProduct, Fin.sum_univ_three, Matrix.cons_val_zero,
      Matrix.cons_val_one, Matrix.cons_val, mul_zero, add_zero, zero_add, mul_one] at a b c
    rw [a, c] at e0 e2
    clear a c h1 h2 h3
    fin_cases i <;> fin_cases j <;>
      simp [principalInertia, rotateInertiaTensor, rotY, Matrix.mul_apply, Fin.sum_univ_three,
        Matrix.diagonal] at b e0 e2 ⊢ <;>
      first
        | exact e0
        | exact e2
        | exact b
        | linear_combination e0
        | linear_combination e2
  · rintro rfl
    refine ⟨?_, ?_, ?_⟩ <;> ext i <;> fin_cases i <;>
      simp [principalInertia, rotateInertiaTensor, rotY, Matrix.mul_apply, Fin.sum_univ_three,
        Matrix.diagonal, Matrix.mulVec, dotProduct] <;>
      first
        | ring1
        | linear_combination (m * ka ^ 2 * cos alpha) * hsc
        | linear_combination (m * ka ^ 2 * -sin alpha) * hsc
        | linear_combination (m * kb ^ 2 * cos alpha) * hsc
        | linear_combination (m * kb ^ 2 * sin alpha) * hsc

/-- The in-plane entries (xx, yy, zz, xz) of two tensors agree. -/
def Spec.PlaneEq (A B : Mat3) : Prop :=
  A 0 0 = B 0 0 ∧ A 1 1 = B 1 1 ∧ A 2 2 = B 2 2 ∧ A 0 2 = B 0 2

theorem sumCentral_origin (m1 m2 : ℝ) (r1 r2 : Vec3) (I1 I2 : Mat3) (hm : m1 + m2 ≠ 0) :
    (⟨m1 + m2, (totalCom [(m1, r1), (m2, r2)]).2, sumCentralInertias m1 r1 I1 m2 r2 I2⟩
      : Spec.Body).originInertia =
    (⟨m1, r1, I1⟩ : Spec.Body).originInertia + (⟨m2, r2, I2⟩ : Spec.Body).originInertia := by
  ext i j
  fin_cases i <;> fin_cases j <;>
    simp [Spec.Body.originInertia, sumCentralInertias, parallelAxis, totalCom, Matrix.vecMulVec,
      dotProduct, Fin.sum_univ_three, Matrix.one_apply] <;>
    field_simp <;> ring

/-- **C32.** A conversion that succeeds keeps the speed, gravity, wheelbase, trail, tilt and
front frame centre; the frame B has the mass, first moment and inertia about the origin of
frame D plus person P; H has the given principal tensor; the wheels have `Izz = Ixx` and the
radii of gyration given. -/
theorem C32_conversion_preserves_moments (p b : Dict ℝ)
    (h : convertPrincipalToBenchmark p = .ok b)
    (hm : p.getD "mD" 0 + p.getD "mP" 0 ≠ 0)
    (ID IP IH : Mat3)
    (hD : Spec.PrincipalTensor ID (p.getD "mD" 0) (p.getD "kDaa" 0) (p.getD "kDyy" 0)
      (p.getD "kDbb" 0) (p.getD "alphaD" 0))
    (hP : Spec.PrincipalTensor IP (p.getD "mP" 0) (p.getD "kPaa" 0) (p.getD "kPyy" 0)
      (p.getD "kPbb" 0) (p.getD "alphaP" 0))
    (hH : Spec.PrincipalTensor IH (p.getD "mH" 0) (p.getD "kHaa" 0) (p.getD "kHyy" 0)
      (p.getD "kHbb" 0) (p.getD "alphaH" 0)) :
    let v := fun k => p.getD k 0
    let u := fun k => b.getD k 0
    let D : Spec.Body := ⟨v "mD", ![v "xD", v "yD", v "zD"], ID⟩
    let P : Spec.Body := ⟨v "mP", ![v "xP", v "yP", v "zP"], IP⟩
    let B : Spec.Body := ⟨u "mB", ![u "xB", u "yB", u "zB"],
      !![u "IBxx", 0, u "IBxz"; 0, u "IByy", 0; u "IBxz", 0, u "IBzz"]⟩
    (∀ k ∈ ["w", "c", "lam", "g", "v", "rR", "rF", "mR", "mF", "mH", "xH", "yH", "zH"],
      b.find? k = p.find? k) ∧
    B.m = D.m + P.m ∧ B.firstMoment = D.firstMoment + P.firstMoment ∧
    Spec.PlaneEq B.originInertia (D.originInertia + P.originInertia) ∧
    Spec.PlaneEq !![u "IHxx", 0, u "IHxz"; 0, u "IHyy", 0; u "IHxz", 0, u "IHzz"] IH ∧
    (∀ W ∈ ["R", "F"], u ("I" ++ W ++ "zz") = u ("I" ++ W ++ "xx") ∧
      u ("I" ++ W ++ "xx") = v ("m" ++ W) * v ("k" ++ W ++ "aa") ^ 2 ∧
      u ("I" ++ W ++ "yy") = v ("m" ++ W) * v ("k" ++ W ++ "yy") ^ 2) := by
  rw [C32_principal_tensor] at hD hP hH
  subst hD hP hH
  intro v u D P B
  unfold convertPrincipalToBenchmark at h
  cases hr : Dict.require p principalKeys with
  | error e => rw [hr] at h; simp at h
  | ok _ =>
    rw [hr] at h
    simp only [Except.ok.injEq] at h
    have hkeys := (Dict.require_ok_iff p principalKeys).1 hr
    have hfind : ∀ k ∈ principalKeys, p.find? k = some (v k) := by
      intro k hk
      obtain ⟨x, hx⟩ := (Dict.has_iff_exists p k).1 (hkeys k hk)
      simp [v, Dict.getD, hx]
    have huB : (⟨u "mB", ![u "xB", u "yB", u "zB"],
        sumCentralInertias D.m D.r D.I P.m P.r P.I⟩ : Spec.Body) =
        ⟨D.m + P.m, (totalCom [(D.m, D.r), (P.m, P.r)]).2, sumCentralInertias D.m D.r D.I P.m P.r P.I⟩ := by
      have e1 : u "mB" = D.m + P.m := by
        simp only [u, ← h]; simp [Dict.getD, Dict.find?, totalCom, D, P, v]
      have e2 : ![u "xB", u "yB", u "zB"] = (totalCom [(D.m, D.r), (P.m, P.r)]).2 := by
        funext i
        fin_cases i <;> simp only [u, ← h] <;> simp [Dict.getD, Dict.find?, D, P, v]
      rw [e1, e2]
    have hcentral : ∀ i j, (i = j ∨ (i = 0 ∧ j = 2)) →
        B.I i j = sumCentralInertias D.m D.r D.I P.m P.r P.I i j := by
      intro i j hij
      have hh : i = 0 ∧ j = 0 ∨ i = 1 ∧ j = 1 ∨ i = 2 ∧ j = 2 ∨ i = 0 ∧ j = 2 := by
        rcases hij with rfl | h
        · fin_cases i <;> simp
        · simp [h]
      rcases hh with ⟨rfl, rfl⟩ | ⟨rfl, rfl⟩ | ⟨rfl, rfl⟩ | ⟨rfl, rfl⟩ <;>
        simp only [B, u, ← h] <;> simp [Dict.getD, Dict.find?, D, P, v]
    have hor : ∀ i j, (i = j ∨ (i = 0 ∧ j = 2)) →
        B.originInertia i j = (D.originInertia + P.originInertia) i j := by
      intro i j hij
      have e := congrFun (congrFun (sumCentral_origin D.m P.m D.r P.r D.I P.I hm) i) j
      rw [← huB] at e
      simp only [Spec.Body.originInertia, Matrix.add_apply] at e ⊢
      rw [hcentral i j hij]
      exact e
    have hmB : B.m = D.m + P.m := congrArg Spec.Body.m huB
    refine ⟨?_, hmB, ?_, ⟨hor 0 0 (by simp), hor 1 1 (by simp), hor 2 2 (by simp), hor 0 2 (by simp)⟩,
      ?_, ?_⟩
    · intro k hk
      have hk' : k ∈ principalKeys := by
        simp only [List.mem_cons, List.not_mem_nil, or_false] at hk
        rcases hk with rfl | rfl | rfl | rfl | rfl | rfl | rfl | rfl | rfl | rfl | rfl | rfl | rfl <;>
          decide
      rw [hfind k hk', ← h]
      simp only [List.mem_cons, List.not_mem_nil, or_false] at hk
      rcases hk with rfl | rfl | rfl | rfl | rfl | rfl | rfl | rfl | rfl | rfl | rfl | rfl | rfl <;>
        simp [Dict.find?, v]
    · have e2 : B.r = (totalCom [(D.m, D.r), (P.m, P.r)]).2 := congrArg Spec.Body.r huB
      have := (C30_weighted_mean [(D.m, D.r), (P.m, P.r)] (by simpa using hm)).2
      funext i
      have hi := this i
      have e3 : (totalCom [(D.m, D.r), (P.m, P.r)]).1 = B.m := by rw [hmB]; simp [totalCom]
      rw [e3, ← e2] at hi
      simp only [Spec.Body.firstMoment, Pi.smul_apply, smul_eq_mul, Pi.add_apply]
      rw [hi]; simp
    · simp only [Spec.PlaneEq, u, ← h]
      simp [Dict.getD, Dict.find?, v]
    · intro W hW
      simp only [List.mem_cons, List.not_mem_nil, or_false] at hW
      rcases hW with rfl | rfl <;> simp only [u, ← h] <;> simp [Dict.getD, Dict.find?, v]

/-- **C32.** The conversion succeeds iff all its keys are there, else it raises `KeyError`
for a missing one. -/
theorem C32_succeeds_iff (p : Dict ℝ) :
    ((∃ b, convertPrincipalToBenchmark p = .ok b) ↔ ∀ k ∈ principalKeys, p.has k = true) ∧
    (∀ e, convertPrincipalToBenchmark p = .error e →
      ∃ k ∈ principalKeys, p.has k = false ∧ e = .keyError k) := by
  constructor
  · rw [← Dict.require_ok_iff]
    unfold convertPrincipalToBenchmark
    cases hr : Dict.require p principalKeys with
    | error e => simp
    | ok _ => simp
  · intro e he
    unfold convertPrincipalToBenchmark at he
    cases hr : Dict.require p principalKeys with
    | error e' =>
      rw [hr] at he
      simp only [Except.error.injEq] at he
      subst he
      obtain ⟨k, hk, h1, h2⟩ := Dict.require_error p principalKeys _ hr
      exact ⟨k, hk, h2, h1⟩
    | ok _ => rw [hr] at he; simp at he

/-- non-vacuity of C32: a dictionary holding 1 for every key converts -/
example : ∃ b, convertPrincipalToBenchmark (principalKeys.map fun k => (k, 1)) = .ok b :=
  ((C32_succeeds_iff _).1).2 (by
    intro k hk
    rw [Dict.has_iff_mem_keys, Dict.keys, List.map_map]
    simpa [Function.comp_def] using hk)

/-! ## C77 part_com_lines -/

/-- The lines of part `p`, one per alpha key of that part, in the order of the keys. -/
def Spec.LinesOf (par mp : Dict ℝ) (l1 l2 : ℝ) (keys : List String) (p : String)
    (lines : List (ℝ × ℝ × ℝ)) : Prop :=
  List.Forall₂ (fun key t => ∃ alpha a, mp.find? key = some alpha ∧
      mp.find? ("a" ++ String.ofList (key.toList.drop 5)) = some a ∧
      comLine alpha a (par.getD "lam" 0) (par.getD "rR" 0) (par.getD "rF" 0) (par.getD "w" 0) p l1 l2
        = .ok t)
    (keys.filter fun key => decide (key.toList[5]? = p.toList.head? ∧ p.toList.length = 1)) lines

theorem comLineStep_ok {par mp : Dict ℝ} {l1 l2 : ℝ} {acc acc' : Dict (List (ℝ × ℝ × ℝ))}
    {key : String} (h : comLineStep par mp l1 l2 acc key = .ok acc') :
    ∃ ch alpha a t l, key.toList[5]? = some ch ∧ mp.find? key = some alpha ∧
      mp.find? ("a" ++ String.ofList (key.toList.drop 5)) = some a ∧
      comLine alpha a (par.getD "lam" 0) (par.getD "rR" 0) (par.getD "rF" 0) (par.getD "w" 0)
        (String.ofList [ch]) l1 l2 = .ok t ∧
      acc.find? (String.ofList [ch]) = some l ∧
      acc' = Dict.set acc (String.ofList [ch]) (l ++ [t]) := by
  unfold comLineStep at h
  cases hr : Dict.require mp [key, "a" ++ String.ofList (key.toList.drop 5)] with
  | error e => simp [hr] at h
  | ok _ =>
    have hk := (Dict.require_ok_iff _ _).1 hr
    obtain ⟨alpha, halpha⟩ := (Dict.has_iff_exists _ _).1 (hk key (by simp))
    obtain ⟨a, ha⟩ := (Dict.has_iff_exists _ _).1 (hk ("a" ++ String.ofList (key.toList.drop 5)) (by simp))
    simp only [hr] at h
    cases hc : key.toList[5]? with
    | none => simp [hc] at h
    | some ch =>
      simp only [hc] at h
      have e1 : Dict.getD mp key 0 = alpha := by simp [Dict.getD, halpha]
      have e2 : Dict.getD mp ("a" ++ String.ofList (key.toList.drop 5)) 0 = a := by simp [Dict.getD, ha]
      rw [e1, e2] at h
      cases hcl : comLine alpha a (par.getD "lam" 0) (par.getD "rR" 0) (par.getD "rF" 0)
          (par.getD "w" 0) (String.ofList [ch]) l1 l2 with
      | error e => simp only [hcl] at h; cases h
      | ok t =>
        simp only [hcl] at h
        cases hf : Dict.find? acc (String.ofList [ch]) with
        | none => simp only [hf] at h; cases h
        | some l =>
          simp only [hf, Except.ok.injEq] at h
          exact ⟨ch, alpha, a, t, l, rfl, halpha, ha, hcl, hf, h.symm⟩

theorem comLines_fold (par mp : Dict ℝ) (l1 l2 : ℝ) (keys : List String) :
    ∀ (done : List String) (acc acc' : Dict (List (ℝ × ℝ × ℝ))),
      (∀ p l, acc.find? p = some l → Spec.LinesOf par mp l1 l2 done p l) →
      keys.foldlM (comLineStep par mp l1 l2) acc = .ok acc' →
      (∀ p l, acc'.find? p = some l → Spec.LinesOf par mp l1 l2 (done ++ keys) p l) ∧
      acc'.keys = acc.keys ∧ ∀ k ∈ keys, ∃ ch, k.toList[5]? = some ch ∧ String.ofList [ch] ∈ acc.keys := by
  induction keys with
  | nil =>
    intro done acc acc' hinv h
    have : acc = acc' := by simpa [pure, Except.pure] using h
    subst this
    simpa using hinv
  | cons key keys ih =>
    intro done acc acc' hinv h
    rw [List.foldlM_cons] at h
    cases hs : comLineStep par mp l1 l2 acc key with
    | error e => rw [hs] at h; simp [bind, Except.bind] at h
    | ok acc1 =>
      rw [hs] at h
      have h : keys.foldlM (comLineStep par mp l1 l2) acc1 = .ok acc' := h
      obtain ⟨ch, alpha, a, t, l, hch, h1, h2, h3, h4, rfl⟩ := comLineStep_ok hs
      have hinv1 : ∀ p l', (Dict.set acc (String.ofList [ch]) (l ++ [t])).find? p = some l' →
          Spec.LinesOf par mp l1 l2 (done ++ [key]) p l' := by
        intro p l' hp
        rw [Dict.find?_set] at hp
        unfold Spec.LinesOf
        rw [List.filter_append]
        split_ifs at hp with hpe
        · subst hpe
          simp only [Option.some.injEq] at hp
          subst hp
          have hcond : (decide (key.toList[5]? = (String.ofList [ch]).toList.head? ∧
              (String.ofList [ch]).toList.length = 1)) = true := by simp [hch]
          rw [List.filter_cons, if_pos hcond]
          exact List.rel_append (hinv _ _ h4)
            (List.Forall₂.cons ⟨alpha, a, h1, h2, h3⟩ List.Forall₂.nil)
        · have hcond : ¬ (decide (key.toList[5]? = p.toList.head? ∧ p.toList.length = 1)) = true := by
            intro hd
            rw [decide_eq_true_eq] at hd
            obtain ⟨d1, d2⟩ := hd
            apply hpe
            obtain ⟨x, hx⟩ := List.length_eq_one_iff.1 d2
            rw [hx, hch] at d1
            simp only [List.head?_cons, Option.some.injEq] at d1
            rw [d1, ← hx, String.ofList_toList]
          rw [List.filter_cons, if_neg hcond, List.filter_nil, List.append_nil]
          exact hinv p l' hp
      obtain ⟨r1, r2, r3⟩ := ih (done ++ [key]) _ acc' hinv1 h
      have hk : (Dict.set acc (String.ofList [ch]) (l ++ [t])).keys = acc.keys := by
        have hh : acc.has (String.ofList [ch]) = true := (Dict.has_iff_exists _ _).2 ⟨_, h4⟩
        rw [Dict.keys_set, if_pos hh]
      refine ⟨by simpa using r1, r2.trans hk, ?_⟩
      intro k hkm
      rcases List.mem_cons.1 hkm with rfl | hkm
      · refine ⟨ch, hch, ?_⟩
        rw [← Dict.has_iff_mem_keys]; exact (Dict.has_iff_exists _ _).2 ⟨_, h4⟩
      · obtain ⟨c, hc1, hc2⟩ := r3 k hkm
        exact ⟨c, hc1, hk ▸ hc2⟩

/-- **C77.** A successful `part_com_lines` has exactly the keys B, G, S (split fork) or
B, H; the list of each part holds, in the sorted order of the part's alpha keys, the line of
each of them with the matching distance; no orientation is dropped. -/
theorem C77_part_com_lines (mp par : Dict ℝ) (split : Bool) (l1 l2 : ℝ)
    (d : Dict (List (ℝ × ℝ × ℝ))) (h : partComLines mp par split l1 l2 = .ok d) :
    d.keys = (if split then ["B", "G", "S"] else ["B", "H"]) ∧
    (∃ keys : List String, keys.Pairwise (· ≤ ·) ∧
      keys.Perm (mp.keys.filter fun k => decide ("alpha".toList <+: k.toList)) ∧
      ∀ p l, d.find? p = some l → Spec.LinesOf par mp l1 l2 keys p l) ∧
    (∀ k ∈ mp.keys, "alpha".toList <+: k.toList →
      ∃ ch, k.toList[5]? = some ch ∧ String.ofList [ch] ∈ d.keys) := by
  have h0 : ∀ p l, Dict.find? ((comLineParts split).map fun p => (p, ([] : List (ℝ × ℝ × ℝ)))) p = some l →
      Spec.LinesOf par mp l1 l2 [] p l := by
    intro p l hp
    have : l = [] := by
      unfold comLineParts at hp
      cases split <;> simp only [Dict.find?, Bool.false_eq_true, if_false, if_true, List.map_cons,
        List.map_nil] at hp <;> split_ifs at hp <;> first | exact (Option.some.inj hp).symm | cases hp
    subst this
    exact List.Forall₂.nil
  obtain ⟨r1, r2, r3⟩ := comLines_fold par mp l1 l2 (alphaKeys mp) [] _ d h0 h
  have hkeys : d.keys = comLineParts split := by rw [r2]; simp [Dict.keys, List.map_map, Function.comp_def]
  refine ⟨?_, ⟨alphaKeys mp, List.pairwise_insertionSort _ _, ?_, by simpa using r1⟩, ?_⟩
  rotate_left 1
  · unfold alphaKeys
    refine (List.perm_insertionSort _ _).trans ?_
    have : (fun k : String => "alpha".toList.isPrefixOf k.toList) =
        fun k : String => decide ("alpha".toList <+: k.toList) := by
      funext k
      rw [Bool.eq_iff_iff, decide_eq_true_eq, List.isPrefixOf_iff_prefix]
    rw [this]
  rotate_left 1
  · rw [hkeys]; cases split <;> rfl
  · intro k hk hpre
    have hmem : k ∈ alphaKeys mp := by
      unfold alphaKeys
      rw [(List.perm_insertionSort _ _).mem_iff, List.mem_filter]
      exact ⟨hk, by simpa using hpre⟩
    obtain ⟨ch, h1, h2⟩ := r3 k hmem
    exact ⟨ch, h1, by rw [r2]; exact h2⟩

/-- non-vacuity of C77: two orientations of the frame -/
example : ∃ d, partComLines [("alphaB2", 1), ("aB2", 2), ("alphaB1", 3), ("aB1", 4)] [] false 0 0
    = .ok d := by
  have : alphaKeys [("alphaB2", 1), ("aB2", 2), ("alphaB1", 3), ("aB1", 4)] = ["alphaB1", "alphaB2"] := by
    simp [alphaKeys, Dict.keys]
  unfold partComLines
  rw [this]
  simp [comLineParts, comLineStep, Dict.require, Dict.find?, comLine, Dict.set,
    List.foldlM, bind, Except.bind, pure, Except.pure]

end BP
