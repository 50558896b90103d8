import Mathlib.LinearAlgebra.Basis.VectorSpace
import Mathlib.LinearAlgebra.Matrix.ToLin
import Verif.Props.Measured

/-!
# From measurements to the bicycle: C80, C81 and the rest of C53 and C41

The specification says what is measured on a bicycle made of rigid bodies; the theorems say
that `calculate_benchmark_from_measured` returns the bodies.
-/

set_option linter.unusedSimpArgs false

namespace BP

open Real Matrix Spec

/-! ## Specification -/

/-- `alphaB1`, `alphaB2`, ... -/
def Spec.alphaKey (p : String) (i : ℕ) : String := "alpha" ++ p ++ toString (i + 1)

/-- `aB1`, `aB2`, ... -/
def Spec.distKey (p : String) (i : ℕ) : String := "a" ++ p ++ toString (i + 1)

/-- The measured file has exactly the orientations `1, ..., n` of part `p`. -/
def Spec.Orientations (mp : Dict ℝ) (p : String) (n : ℕ) : Prop :=
  (∀ i < n, mp.has (alphaKey p i) = true) ∧
  ∀ key ∈ mp.keys, ("alpha" ++ p).toList <+: key.toList → ∃ i < n, key = alphaKey p i

/-! ## C80 -/

theorem alphaKeys_sorted (p : String) (hp : p ∈ ["B", "H", "G", "S"]) (n : ℕ) (hn : n ≤ 9) :
    ((List.range n).map (alphaKey p)).Pairwise (· < ·) := by
  have h9 : ((List.range 9).map (alphaKey p)).Pairwise (· < ·) := by
    simp only [List.mem_cons, List.not_mem_nil, or_false] at hp
    rcases hp with rfl | rfl | rfl | rfl <;> decide
  refine h9.sublist (List.Sublist.map _ ?_)
  exact List.range_sublist.2 hn

theorem sorted_keys_eq {mp : Dict ℝ} {keys L : List String} (p : String)
    (hp : p ∈ ["B", "H", "G", "S"]) (hnd : mp.keys.Nodup) (hsorted : L.Pairwise (· < ·))
    (hmem : ∀ key, key ∈ L ↔ key ∈ mp.keys ∧ ("alpha" ++ p).toList <+: key.toList)
    (hs : keys.Pairwise (· ≤ ·))
    (hperm : keys.Perm (mp.keys.filter fun k => decide ("alpha".toList <+: k.toList))) :
    (keys.filter fun key => decide (key.toList[5]? = p.toList.head? ∧ p.toList.length = 1)) = L := by
  have hpre : ∀ key : String, ("alpha" ++ p).toList <+: key.toList ↔
      "alpha".toList <+: key.toList ∧ key.toList[5]? = p.toList.head? ∧ p.toList.length = 1 := by
    intro key
    obtain ⟨c, hc⟩ : ∃ c, p.toList = [c] := by
      simp only [List.mem_cons, List.not_mem_nil, or_false] at hp
      rcases hp with rfl | rfl | rfl | rfl
      exacts [⟨'B', rfl⟩, ⟨'H', rfl⟩, ⟨'G', rfl⟩, ⟨'S', rfl⟩]
    have ha : "alpha".toList = ['a', 'l', 'p', 'h', 'a'] := rfl
    rw [String.toList_append, hc, ha]
    generalize key.toList = l
    match l with
    | [] => simp
    | [_] => simp
    | [_, _] => simp
    | [_, _, _] => simp
    | [_, _, _, _] => simp
    | [_, _, _, _, _] => simp
    | _ :: _ :: _ :: _ :: _ :: d :: l => simp [eq_comm]; tauto
  have hndk : keys.Nodup := hperm.nodup_iff.2 (hnd.filter _)
  refine List.Perm.eq_of_pairwise (le := (· ≤ ·)) (fun a b _ _ h1 h2 => le_antisymm h1 h2)
    (hs.filter _) (hsorted.imp fun h => le_of_lt h) ?_
  rw [List.perm_ext_iff_of_nodup (hndk.filter _) (hsorted.imp fun h => ne_of_lt h)]
  intro key
  rw [List.mem_filter, hperm.mem_iff, List.mem_filter, hmem]
  simp only [decide_eq_true_eq]
  rw [and_assoc, ← hpre]

theorem orientations_mem {mp : Dict ℝ} {p : String} {n : ℕ} (ho : Orientations mp p n) (key : String) :
    key ∈ (List.range n).map (alphaKey p) ↔ key ∈ mp.keys ∧ ("alpha" ++ p).toList <+: key.toList := by
  simp only [List.mem_map, List.mem_range]
  constructor
  · rintro ⟨i, hi, rfl⟩
    refine ⟨(Dict.has_iff_mem_keys _ _).1 (ho.1 i hi), ?_⟩
    rw [alphaKey, @String.toList_append ("alpha" ++ p)]
    exact List.prefix_append _ _
  · rintro ⟨h1, h2⟩
    obtain ⟨i, hi, e⟩ := ho.2 key h1 h2
    exact ⟨i, hi, e.symm⟩

theorem frameParts_sub {split : Bool} {p : String} (hp : p ∈ frameParts split) :
    p ∈ ["B", "H", "G", "S"] := by
  cases split <;> simp [frameParts] at hp ⊢ <;> tauto

theorem distKey_eq (p : String) (i : ℕ) :
    "a" ++ String.ofList ((alphaKey p i).toList.drop 5) = distKey p i := by
  apply String.toList_inj.1
  rw [alphaKey, distKey, @String.toList_append "a", String.toList_ofList, @String.toList_append ("alpha" ++ p),
    @String.toList_append "alpha", @String.toList_append ("a" ++ p), @String.toList_append "a" p,
    show "alpha".toList = ['a', 'l', 'p', 'h', 'a'] from rfl]
  simp

/-- The lines of a part, in the sorted order of its keys. -/
theorem lines_of_sorted {mp p1 : Dict ℝ} {split : Bool} {l1 l2 : ℝ} {lines : Dict (List (ℝ × ℝ × ℝ))}
    (h : partComLines mp p1 split l1 l2 = .ok lines) (p : String) (hp : p ∈ frameParts split)
    (L : List String) (hnd : mp.keys.Nodup) (hsorted : L.Pairwise (· < ·))
    (hmem : ∀ key, key ∈ L ↔ key ∈ mp.keys ∧ ("alpha" ++ p).toList <+: key.toList) :
    ∃ l, (p, l) ∈ lines ∧ l.length = L.length ∧ ∀ i (hL : i < L.length) (hi : i < l.length), ∃ alpha a,
      mp.find? L[i] = some alpha ∧ mp.find? ("a" ++ String.ofList (L[i].toList.drop 5)) = some a ∧
      comLine alpha a (p1.getD "lam" 0) (p1.getD "rR" 0) (p1.getD "rF" 0) (p1.getD "w" 0) p l1 l2 =
        .ok l[i] := by
  obtain ⟨c1, ⟨keys, k1, k2, k3⟩, -⟩ := C77_part_com_lines mp p1 split l1 l2 lines h
  have hm : p ∈ lines.keys := by rw [c1]; exact hp
  obtain ⟨l, hl⟩ := (Dict.has_iff_exists _ _).1 ((Dict.has_iff_mem_keys _ _).2 hm)
  have h4 := frameParts_sub hp
  have hlo := k3 p l hl
  unfold LinesOf at hlo
  rw [sorted_keys_eq p h4 hnd hsorted hmem k1 k2] at hlo
  have hlen : l.length = L.length := hlo.length_eq.symm
  refine ⟨l, Dict.find?_some_mem hl, hlen, fun i hL hi => ?_⟩
  exact (List.forall₂_iff_get.1 hlo).2 i hL hi

/-- The lines of a part, in the order of the orientations. -/
theorem lines_of_part {mp p1 : Dict ℝ} {split : Bool} {l1 l2 : ℝ} {lines : Dict (List (ℝ × ℝ × ℝ))}
    (h : partComLines mp p1 split l1 l2 = .ok lines) (p : String) (hp : p ∈ frameParts split) (n : ℕ)
    (hn : n ≤ 9) (hnd : mp.keys.Nodup) (ho : Orientations mp p n) :
    ∃ l, (p, l) ∈ lines ∧ l.length = n ∧ ∀ i (_ : i < n) (hi : i < l.length), ∃ alpha a,
      mp.find? (alphaKey p i) = some alpha ∧ mp.find? (distKey p i) = some a ∧
      comLine alpha a (p1.getD "lam" 0) (p1.getD "rR" 0) (p1.getD "rF" 0) (p1.getD "w" 0) p l1 l2 =
        .ok l[i] := by
  obtain ⟨l, hl, hlen, hline⟩ := lines_of_sorted h p hp _ hnd
    (alphaKeys_sorted p (frameParts_sub hp) n hn) (orientations_mem ho)
  refine ⟨l, hl, by simpa using hlen, fun i hin hi => ?_⟩
  have := hline i (by simpa using hin) hi
  simp only [List.getElem_map, List.getElem_range] at this
  rw [distKey_eq p] at this
  exact this

theorem comLine_beta {alpha a lam rR rF w : ℝ} {p : String} {l1 l2 : ℝ} {t : ℝ × ℝ × ℝ}
    (h : comLine alpha a lam rR rF w p l1 l2 = .ok t) : t.2.2 = lam - alpha * π / 180 := by
  unfold comLine at h
  simp only [] at h
  split_ifs at h
  · simp only [Except.ok.injEq] at h; rw [← h]
  · simp only [Except.ok.injEq] at h; rw [← h]
  · split at h
    · cases h
    · simp only [Except.ok.injEq] at h; rw [← h]

/-- **C80.** With orientations `1, ..., n` (`n ≤ 9`; the documentation allows six), the in-plane
inertia of each part is computed from pairs of the angle and of the torsional period of the
same orientation. -/
theorem C80_orientation_paired_with_its_period {newton : (ℝ → ℝ) → ℝ → Except PyErr ℝ}
    {matInv : ∀ n, Matrix (Fin n) (Fin 3) ℝ → Matrix (Fin 3) (Fin n) ℝ} {mp par : Dict ℝ}
    {lines : Dict (List (ℝ × ℝ × ℝ))} (h : calculateBenchmark newton matInv mp = .ok (par, lines))
    (hnd : mp.keys.Nodup) (p : String) (hp : p ∈ frameParts (isForkSplit mp)) (n : ℕ) (hn : n ≤ 9)
    (ho : Orientations mp p n) :
    ∃ k, k = torsionalPendulumStiffness
        (tubeInertia (mp.getD "lP" 0) (mp.getD "mP" 0) (mp.getD "dP" 0 / 2) 0).2.1 (mp.getD "TtP1" 0) ∧
    ∃ alpha T : Fin n → ℝ,
      (∀ i : Fin n, mp.find? ("alpha" ++ p ++ toString (i.1 + 1)) = some (alpha i)) ∧
      (∀ i : Fin n, mp.find? ("Tt" ++ p ++ toString (i.1 + 1)) = some (T i)) ∧
      let I := inertiaComponents (matInv n) (fun i => torInertia k (T i))
        (fun i => par.getD "lam" 0 - alpha i * π / 180)
      par.find? ("I" ++ p ++ "xx") = some (I 0) ∧ par.find? ("I" ++ p ++ "xz") = some (I 1) ∧
      par.find? ("I" ++ p ++ "zz") = some (I 2) := by
  obtain ⟨geo, p1, l1, l2, u1, u2, k, f1, f2, f3, f4, f5, f6, f7, f8, f9, f10, f11, f12, f13, f14, f15,
    f16, f17, f18, f19, f20, f21⟩ := calculateBenchmark_facts h
  obtain ⟨l, hl, rfl, hline⟩ := lines_of_part f4 p hp n hn hnd ho
  obtain ⟨t1, t2, t3, t4⟩ := f17 p l hl
  have hlam : p1.getD "lam" 0 = par.getD "lam" 0 := by
    unfold Dict.getD; rw [(f5 "lam" (by simp)).1, (f5 "lam" (by simp)).2]
  choose alpha a ha1 ha2 ha3 using fun i : Fin l.length => hline i i.2 i.2
  refine ⟨k, f14, alpha, fun i => mp.getD (ttKey p i) 0, ha1, fun i => ?_, ?_⟩
  · obtain ⟨v, hv⟩ := (Dict.has_iff_exists _ _).1 (t1 i i.2)
    show mp.find? (ttKey p i) = some (mp.getD (ttKey p i) 0)
    rw [hv, Dict.getD, hv]; rfl
  · have hbeta : (fun i : Fin l.length => (l[i]).2.2) = fun i => par.getD "lam" 0 - alpha i * π / 180 := by
      funext i
      have := comLine_beta (ha3 i)
      rw [hlam] at this
      exact this
    simp only [inPlaneOf] at t2 t3 t4
    rw [hbeta] at t2 t3 t4
    exact ⟨t2, t3, t4⟩

/-- The sorted alpha keys of the frame for ten orientations. -/
def tenKeys : List String :=
  ["alphaB1", "alphaB10", "alphaB2", "alphaB3", "alphaB4", "alphaB5", "alphaB6", "alphaB7", "alphaB8",
   "alphaB9"]

/-- **C80 fails** beyond nine orientations: with ten, the angle of the tenth orientation is
combined with the period of the second, that of the second with the period of the third, and so
on, because the keys are sorted as text. -/
theorem C80_ten_orientations_mispaired {newton : (ℝ → ℝ) → ℝ → Except PyErr ℝ}
    {matInv : ∀ n, Matrix (Fin n) (Fin 3) ℝ → Matrix (Fin 3) (Fin n) ℝ} {mp par : Dict ℝ}
    {lines : Dict (List (ℝ × ℝ × ℝ))} (h : calculateBenchmark newton matInv mp = .ok (par, lines))
    (hnd : mp.keys.Nodup) (ho : Orientations mp "B" 10) :
    ∃ (k : ℝ) (beta T : Fin 10 → ℝ),
      (∀ i : Fin 10, mp.find? ("TtB" ++ toString (i.1 + 1)) = some (T i)) ∧
      beta 1 = par.getD "lam" 0 - mp.getD "alphaB10" 0 * π / 180 ∧
      beta 2 = par.getD "lam" 0 - mp.getD "alphaB2" 0 * π / 180 ∧
      par.find? "IBxx" =
        some (inertiaComponents (matInv 10) (fun i => torInertia k (T i)) beta 0) := by
  obtain ⟨geo, p1, l1, l2, u1, u2, k, f1, f2, f3, f4, f5, f6, f7, f8, f9, f10, f11, f12, f13, f14, f15,
    f16, f17, f18, f19, f20, f21⟩ := calculateBenchmark_facts h
  have hB : "B" ∈ frameParts (isForkSplit mp) := by cases isForkSplit mp <;> simp [frameParts]
  have hset : ∀ key, key ∈ tenKeys ↔ key ∈ mp.keys ∧ ("alpha" ++ "B").toList <+: key.toList := by
    intro key
    rw [← orientations_mem ho]
    have : (List.range 10).map (alphaKey "B") = ["alphaB1", "alphaB2", "alphaB3", "alphaB4", "alphaB5",
      "alphaB6", "alphaB7", "alphaB8", "alphaB9", "alphaB10"] := by decide
    rw [this]
    exact (show tenKeys.Perm _ by decide).mem_iff
  obtain ⟨l, hl, hlen, hline⟩ := lines_of_sorted f4 "B" hB tenKeys hnd (by decide) hset
  have hlen : l.length = 10 := hlen
  have hlam : p1.getD "lam" 0 = par.getD "lam" 0 := by
    unfold Dict.getD; rw [(f5 "lam" (by simp)).1, (f5 "lam" (by simp)).2]
  obtain ⟨t1, t2, -, -⟩ := f17 "B" l hl
  have aux : ∀ n (hn : l.length = n), n = 10 → ∃ beta : Fin n → ℝ, (∀ i : Fin n, beta i = (l[i.1]).2.2) ∧
      inPlaneOf matInv mp k ("B", l) 0 =
        inertiaComponents (matInv n) (fun i => torInertia k (mp.getD (ttKey "B" i) 0)) beta 0 := by
    intro n hn _
    subst hn
    exact ⟨fun i => (l[i]).2.2, fun i => rfl, rfl⟩
  obtain ⟨beta, hb, hI⟩ := aux 10 hlen rfl
  refine ⟨k, beta, fun i => mp.getD (ttKey "B" i) 0, fun i => ?_, ?_, ?_, ?_⟩
  · obtain ⟨v, hv⟩ := (Dict.has_iff_exists _ _).1 (t1 i (by rw [hlen]; exact i.2))
    show mp.find? (ttKey "B" i) = some (mp.getD (ttKey "B" i) 0)
    rw [hv, Dict.getD, hv]; rfl
  · obtain ⟨alpha, a, a1, -, a3⟩ := hline 1 (by decide) (by omega)
    rw [hb]
    have : mp.getD "alphaB10" 0 = alpha := Dict.getD_eq_of_find? _ _ _ _ a1
    rw [this, ← hlam]
    exact comLine_beta a3
  · obtain ⟨alpha, a, a1, -, a3⟩ := hline 2 (by decide) (by omega)
    rw [hb]
    have : mp.getD "alphaB2" 0 = alpha := Dict.getD_eq_of_find? _ _ _ _ a1
    rw [this, ← hlam]
    exact comLine_beta a3
  · rw [← hI]; exact t2

/-! ## C81: specification of the measurements -/

/-- The direction of a pendulum axis at the angle `β` in the symmetry plane. -/
noncomputable def Spec.axisDir (beta : ℝ) : Vec3 := ![cos beta, 0, -sin beta]

/-- Distance in the plane. -/
noncomputable def Spec.arm (ref : ℝ × ℝ) (t : Part) : ℝ := √((t.x - ref.1) ^ 2 + (t.z - ref.2) ^ 2)

/-- What is written down when the rigid body `t` (part `p`) is measured with `n` orientations:
its mass; the period of the compound pendulum swinging about the reference point `ref`; for
each orientation the tube angle, the signed distance of the reference point from the pendulum
axis, which passes through the mass centre, and the period of the torsional pendulum with
stiffness `k` about that axis. -/
structure Spec.MeasuredPart (mp : Dict ℝ) (k g lam : ℝ) (ref : ℝ × ℝ) (p : String) (n : ℕ)
    (alpha : ℕ → ℝ) (t : Part) : Prop where
  mass : mp.find? ("m" ++ p) = some t.m
  mass_pos : 0 < t.m
  plane : t.y = 0
  iyy : 0 ≤ t.Iyy
  three : 3 ≤ n
  nine : n ≤ 9
  orient : Orientations mp p n
  arm_pos : 0 < arm ref t
  compound : mp.find? ("Tc" ++ p ++ "1") =
    some (2 * π * √((t.Iyy + t.m * arm ref t ^ 2) / (t.m * g * arm ref t)))
  angle : ∀ i < n, mp.find? ("alpha" ++ p ++ toString (i + 1)) = some (alpha i)
  notVertical : ∀ i < n, cos (lam - alpha i * π / 180) ≠ 0
  distinct : ∀ i < n, ∀ j < n, i ≠ j →
    sin ((lam - alpha i * π / 180) - (lam - alpha j * π / 180)) ≠ 0
  distance : ∀ i < n, mp.find? ("a" ++ p ++ toString (i + 1)) =
    some ((ref.1 - t.x) * sin (lam - alpha i * π / 180) + (ref.2 - t.z) * cos (lam - alpha i * π / 180))
  inPlane : ∀ i < n, 0 ≤ axisMoment t.tensor (axisDir (lam - alpha i * π / 180))
  torsional : ∀ i < n, mp.find? ("Tt" ++ p ++ toString (i + 1)) =
    some (2 * π * √(axisMoment t.tensor (axisDir (lam - alpha i * π / 180)) / k))

/-- What is written down when a wheel is measured. -/
structure Spec.MeasuredWheel (mp : Dict ℝ) (k g : ℝ) (p : String) (m l Ixx Iyy : ℝ) : Prop where
  mass : mp.find? ("m" ++ p) = some m
  mass_pos : 0 < m
  length : mp.find? ("l" ++ p) = some l
  length_pos : 0 < l
  ixx : 0 ≤ Ixx
  iyy : 0 ≤ Iyy
  compound : mp.find? ("Tc" ++ p ++ "1") = some (2 * π * √((Iyy + m * l ^ 2) / (m * g * l)))
  torsional : mp.find? ("Tt" ++ p ++ "1") = some (2 * π * √(Ixx / k))

/-- What is written down when the wire of stiffness `k` is calibrated with a cylindrical rod. -/
structure Spec.MeasuredRod (mp : Dict ℝ) (k m l d : ℝ) : Prop where
  mass : mp.find? "mP" = some m
  mass_pos : 0 < m
  length : mp.find? "lP" = some l
  length_pos : 0 < l
  diameter : mp.find? "dP" = some d
  stiff_pos : 0 < k
  period : mp.find? "TtP1" = some (2 * π * √(m * (3 * (d / 2) ^ 2 + l ^ 2) / 12 / k))

/-- The reference point of each part: rear wheel centre, front wheel centre, handlebar
reference point. -/
def Spec.refPoint (rR rF w u1 u2 : ℝ) (p : String) : ℝ × ℝ :=
  if p = "B" then (0, -rR) else if p = "G" then (w - u1, -(rF + u2)) else (w, -rF)

/-! ## C81: each stage -/

theorem torInertia_of_period (k I : ℝ) (hk : 0 < k) (hI : 0 ≤ I) :
    torInertia k (2 * π * √(I / k)) = I := by
  have hp := Real.pi_pos
  unfold torInertia
  rw [mul_pow, Real.sq_sqrt (by positivity)]
  field_simp
  ring

theorem compound_of_period (m g l I : ℝ) (hm : 0 < m) (hg : 0 < g) (hl : 0 < l) (hI : 0 ≤ I) :
    compoundPendulumInertia m g l (2 * π * √((I + m * l ^ 2) / (m * g * l))) = I := by
  have hp := Real.pi_pos
  have h1 : 0 < m * l ^ 2 := by positivity
  refine ((C22_pendulum_inverts_period m g l _ I hm hg hl ?_ (by positivity)).2 rfl).symm
  have : 0 < (I + m * l ^ 2) / (m * g * l) := by positivity
  positivity

theorem stiffness_of_rod {mp : Dict ℝ} {k m l d : ℝ} (h : MeasuredRod mp k m l d) :
    torsionStiffness mp = .ok k := by
  have hp := Real.pi_pos
  have hI : 0 < m * (3 * (d / 2) ^ 2 + l ^ 2) / 12 := by
    have := h.mass_pos; have := h.length_pos; positivity
  unfold torsionStiffness
  have hr : Dict.require mp ["lP", "mP", "dP", "TtP1"] = .ok () := by
    simp [Dict.require, h.mass, h.length, h.diameter, h.period]
  simp only [hr, Dict.getD, h.mass, h.length, h.diameter, h.period, Option.getD_some]
  congr 1
  have hk := h.stiff_pos
  unfold torsionalPendulumStiffness tubeInertia
  simp only []
  have hJ : m / 12 * (3 * (d / 2) ^ 2 + 3 * 0 ^ 2 + l ^ 2) = m * (3 * (d / 2) ^ 2 + l ^ 2) / 12 := by ring
  rw [hJ]
  set I := m * (3 * (d / 2) ^ 2 + l ^ 2) / 12 with hIdef
  rw [mul_pow, Real.sq_sqrt (by positivity)]
  field_simp
  ring

theorem axisMoment_axisDir (t : Part) (beta : ℝ) :
    axisMoment t.tensor (axisDir beta) = measuredInertia t.Ixx t.Ixz t.Iyy t.Izz beta := by
  simp only [measuredInertia, rotateInertiaTensor, rotY, Matrix.mul_apply, Fin.sum_univ_three,
    Matrix.transpose_apply, axisMoment, Part.tensor, axisDir, Matrix.mulVec, dotProduct]
  simp

theorem comLine_succeeds (alpha a lam rR rF w l1 l2 u1 u2 : ℝ) (p : String)
    (hp : p ∈ ["B", "H", "G", "S"]) (hu : p = "G" → fwheelToHandlebarRef lam l1 l2 = .ok (u1, u2)) :
    ∃ b, comLine alpha a lam rR rF w p l1 l2 =
        .ok (-tan (lam - alpha * π / 180), b, lam - alpha * π / 180) ∧
      (cos (lam - alpha * π / 180) ≠ 0 → ∀ x z, z = -tan (lam - alpha * π / 180) * x + b ↔
        ((refPoint rR rF w u1 u2 p).1 - x) * sin (lam - alpha * π / 180) +
        ((refPoint rR rF w u1 u2 p).2 - z) * cos (lam - alpha * π / 180) = a) := by
  have key : ∃ b, comLine alpha a lam rR rF w p l1 l2 =
        .ok (-tan (lam - alpha * π / 180), b, lam - alpha * π / 180) := by
    unfold comLine
    simp only [List.mem_cons, List.not_mem_nil, or_false] at hp
    rcases hp with rfl | rfl | rfl | rfl
    · exact ⟨_, rfl⟩
    · exact ⟨_, rfl⟩
    · simp [hu rfl]
    · exact ⟨_, rfl⟩
  obtain ⟨b, hb⟩ := key
  refine ⟨b, hb, fun hc => ?_⟩
  obtain ⟨-, hu', hr⟩ := ((C29_com_line_geometry alpha a lam rR rF w l1 l2 p hc).2 _ _ _ hb)
  obtain ⟨v2, hv, hr⟩ := hr
  have : comRef rR rF w hu' v2 p = refPoint rR rF w u1 u2 p := by
    unfold comRef refPoint
    by_cases h1 : p = "B"
    · simp [h1]
    · by_cases h2 : p = "G"
      · have := hv h2
        rw [hu h2] at this
        simp only [Except.ok.injEq, Prod.mk.injEq] at this
        simp [h2, this.1, this.2]
      · simp [h1, h2]
  rw [this] at hr
  exact hr

theorem foldlM_succeeds {A E : Type} (P : A → Prop) (step : A → E → Except PyErr A) :
    ∀ (l : List E), (∀ acc e, P acc → e ∈ l → ∃ out, step acc e = .ok out ∧ P out) → ∀ acc, P acc →
      ∃ out, l.foldlM step acc = .ok out := by
  intro l
  induction l with
  | nil => intro _ acc _; exact ⟨acc, rfl⟩
  | cons e l ih =>
    intro h acc hP
    obtain ⟨a1, h1, hP1⟩ := h acc e hP (by simp)
    obtain ⟨out, ho⟩ := ih (fun acc e hP he => h acc e hP (List.mem_cons_of_mem _ he)) a1 hP1
    refine ⟨out, ?_⟩
    rw [List.foldlM_cons, h1]
    exact ho

theorem partComLines_succeeds (mp p1 : Dict ℝ) (split : Bool) (l1 l2 u1 u2 : ℝ)
    (hgood : ∀ key ∈ mp.keys, "alpha".toList <+: key.toList → ∃ p ∈ frameParts split, ∃ i,
      key = alphaKey p i ∧ mp.has (distKey p i) = true)
    (hu : split = true → fwheelToHandlebarRef (p1.getD "lam" 0) l1 l2 = .ok (u1, u2)) :
    ∃ lines, partComLines mp p1 split l1 l2 = .ok lines := by
  unfold partComLines
  refine foldlM_succeeds (fun acc => acc.keys = frameParts split) _ _ ?_ _ ?_
  · intro acc key hacc hkey
    have hkey' := ((List.perm_insertionSort _ _).mem_iff).1 hkey
    rw [List.mem_filter] at hkey'
    obtain ⟨hm, hpre⟩ := hkey'
    rw [List.isPrefixOf_iff_prefix] at hpre
    obtain ⟨p, hp, i, rfl, hd⟩ := hgood key hm hpre
    have h4 := frameParts_sub hp
    obtain ⟨c, hc⟩ : ∃ c, p.toList = [c] := by
      simp only [List.mem_cons, List.not_mem_nil, or_false] at h4
      rcases h4 with rfl | rfl | rfl | rfl
      exacts [⟨'B', rfl⟩, ⟨'H', rfl⟩, ⟨'G', rfl⟩, ⟨'S', rfl⟩]
    have h5 : (alphaKey p i).toList[5]? = some c := by
      rw [alphaKey, @String.toList_append ("alpha" ++ p), @String.toList_append "alpha", hc,
        show "alpha".toList = ['a', 'l', 'p', 'h', 'a'] from rfl]
      rfl
    have hpc : String.ofList [c] = p := by
      apply String.toList_inj.1; rw [String.toList_ofList, hc]
    have hr : Dict.require mp [alphaKey p i, "a" ++ String.ofList ((alphaKey p i).toList.drop 5)] = .ok () := by
      rw [Dict.require_ok_iff, distKey_eq]
      intro k hk
      simp only [List.mem_cons, List.not_mem_nil, or_false] at hk
      rcases hk with rfl | rfl
      · exact (Dict.has_iff_mem_keys _ _).2 hm
      · exact hd
    have hu' : p = "G" → fwheelToHandlebarRef (p1.getD "lam" 0) l1 l2 = .ok (u1, u2) := by
      intro e
      apply hu
      cases split with
      | true => rfl
      | false => rw [e] at hp; simp [frameParts] at hp
    obtain ⟨b, hb, -⟩ := comLine_succeeds (Dict.getD mp (alphaKey p i) 0)
      (Dict.getD mp ("a" ++ String.ofList ((alphaKey p i).toList.drop 5)) 0) (p1.getD "lam" 0)
      (p1.getD "rR" 0) (p1.getD "rF" 0) (p1.getD "w" 0) l1 l2 u1 u2 p h4 hu'
    obtain ⟨l, hl⟩ := (Dict.has_iff_exists acc p).1 ((Dict.has_iff_mem_keys _ _).2 (hacc ▸ hp))
    unfold comLineStep
    simp only [hr, h5, hpc, hb, hl]
    refine ⟨_, rfl, ?_⟩
    rw [Dict.keys_set, if_pos ((Dict.has_iff_exists acc p).2 ⟨l, hl⟩), hacc]
  · cases split <;> rfl

theorem calculateBenchmark_of_stages {newton : (ℝ → ℝ) → ℝ → Except PyErr ℝ}
    {matInv : ∀ n, Matrix (Fin n) (Fin 3) ℝ → Matrix (Fin 3) (Fin n) ℝ} {mp : Dict ℝ}
    {geo p1 p2 p3 p4 p5 out : Dict ℝ} {l1 l2 u1 u2 k : ℝ} {lines : Dict (List (ℝ × ℝ × ℝ))}
    (h1 : calculateBenchmarkGeometry newton mp [] = .ok geo)
    (h2 : setMasses mp (isForkSplit mp) geo = .ok p1)
    (h3 : splitLengths mp (isForkSplit mp) = .ok (l1, l2))
    (h4 : partComLines mp p1 (isForkSplit mp) l1 l2 = .ok lines)
    (h5 : setCentres lines p1 = .ok p2)
    (h6 : splitRef (if isForkSplit mp then setSplitCentre p2 else p2) (isForkSplit mp) l1 l2 = .ok (u1, u2))
    (h7 : setYInertias mp (isForkSplit mp) u1 u2 (if isForkSplit mp then setSplitCentre p2 else p2) = .ok p3)
    (h8 : torsionStiffness mp = .ok k)
    (h9 : setWheelInertias mp k p3 = .ok p4)
    (h10 : setInPlane matInv mp k lines p4 = .ok p5)
    (h11 : (if isForkSplit mp then setSplitInertia p5 else .ok p5) = .ok out) :
    calculateBenchmark newton matInv mp = .ok (out, lines) := by
  unfold calculateBenchmark
  simp only [bind, Except.bind, h1, h2, h3, h4, h5, h6, h7, h8, h9, h10]
  split_ifs at h11 ⊢ with hs
  · simp only [h11]
  · simp only [Except.ok.injEq] at h11
    simp only [h11]

theorem tan_ne_of_sin_ne {a b : ℝ} (ha : cos a ≠ 0) (hb : cos b ≠ 0) (h : sin (a - b) ≠ 0) :
    -tan a ≠ -tan b := by
  intro e
  apply h
  have e : tan a = tan b := neg_injective e
  rw [tan_eq_sin_div_cos, tan_eq_sin_div_cos, div_eq_div_iff ha hb] at e
  rw [sin_sub]
  linarith

/-- The lines of a measured part all pass through the mass centre. -/
theorem lines_concurrent {mp p1 : Dict ℝ} {split : Bool} {l1 l2 : ℝ} {lines : Dict (List (ℝ × ℝ × ℝ))}
    (h : partComLines mp p1 split l1 l2 = .ok lines) (hnd : mp.keys.Nodup) (p : String)
    (hp : p ∈ frameParts split) (u1 u2 k g : ℝ) (n : ℕ) (alpha : ℕ → ℝ) (t : Part)
    (hu : p = "G" → fwheelToHandlebarRef (p1.getD "lam" 0) l1 l2 = .ok (u1, u2))
    (ht : MeasuredPart mp k g (p1.getD "lam" 0)
      (refPoint (p1.getD "rR" 0) (p1.getD "rF" 0) (p1.getD "w" 0) u1 u2 p) p n alpha t) :
    ∃ l, (p, l) ∈ lines ∧ l.length = n ∧ centerOfMass (l.map fun t => (t.1, t.2.1)) = .ok (t.x, t.z) ∧
      ∀ i (hi : i < l.length), (l[i]).2.2 = p1.getD "lam" 0 - alpha i * π / 180 := by
  obtain ⟨l, hl, hlen, hline⟩ := lines_of_part h p hp n ht.nine hnd ht.orient
  have hline' : ∀ i (hi : i < l.length), (l[i]).2.2 = p1.getD "lam" 0 - alpha i * π / 180 ∧
      (l[i]).1 = -tan (p1.getD "lam" 0 - alpha i * π / 180) ∧
      t.z = (l[i]).1 * t.x + (l[i]).2.1 := by
    intro i hi
    obtain ⟨al, a, a1, a2, a3⟩ := hline i (hlen ▸ hi) hi
    have e1 : al = alpha i := by
      have := ht.angle i (hlen ▸ hi)
      rw [show "alpha" ++ p ++ toString (i + 1) = alphaKey p i from rfl, a1] at this
      exact Option.some.inj this
    subst e1
    obtain ⟨b, hb, hiff⟩ := comLine_succeeds (alpha i) a (p1.getD "lam" 0) (p1.getD "rR" 0)
      (p1.getD "rF" 0) (p1.getD "w" 0) l1 l2 u1 u2 p (frameParts_sub hp) hu
    rw [a3] at hb
    simp only [Except.ok.injEq] at hb
    rw [hb]
    refine ⟨rfl, rfl, (hiff (ht.notVertical i (hlen ▸ hi)) t.x t.z).2 ?_⟩
    have := ht.distance i (hlen ▸ hi)
    rw [show "a" ++ p ++ toString (i + 1) = distKey p i from rfl, a2] at this
    exact (Option.some.inj this).symm
  refine ⟨l, hl, hlen, ?_, fun i hi => (hline' i hi).1⟩
  apply C28_concurrent_lines
  · have := ht.three; simp; omega
  · rw [List.map_map, List.nodup_iff_injective_get]
    intro i j hij
    have hi : i.1 < l.length := by simpa using i.2
    have hj : j.1 < l.length := by simpa using j.2
    simp only [List.get_eq_getElem, List.getElem_map, Function.comp_apply] at hij
    rw [(hline' i hi).2.1, (hline' j hj).2.1] at hij
    by_contra hne
    have hne' : i.1 ≠ j.1 := fun e => hne (Fin.ext e)
    exact tan_ne_of_sin_ne (ht.notVertical i (hlen ▸ hi)) (ht.notVertical j (hlen ▸ hj))
      (ht.distinct i (hlen ▸ hi) j (hlen ▸ hj) hne') hij
  · intro q hq
    obtain ⟨e, he, rfl⟩ := List.mem_map.1 hq
    obtain ⟨i, hi, rfl⟩ := List.getElem_of_mem he
    exact (hline' i hi).2.2

theorem measuring_and_computing_of_ref {newton : (ℝ → ℝ) → ℝ → Except PyErr ℝ}
    {matInv : ∀ n, Matrix (Fin n) (Fin 3) ℝ → Matrix (Fin 3) (Fin n) ℝ}
    (hinv : ∀ n (A : Matrix (Fin n) (Fin 3) ℝ), A * matInv n A * A = A)
    (mp geo : Dict ℝ) (hnd : mp.keys.Nodup) (hgeo : calculateBenchmarkGeometry newton mp [] = .ok geo)
    (g k mP lP dP : ℝ) (hg : mp.find? "g" = some g) (hgpos : 0 < g) (hrod : MeasuredRod mp k mP lP dP)
    (mF lF IFxx IFyy mR lR IRxx IRyy : ℝ) (hF : MeasuredWheel mp k g "F" mF lF IFxx IFyy)
    (hR : MeasuredWheel mp k g "R" mR lR IRxx IRyy)
    (l1 l2 u1 u2 : ℝ) (hl : splitLengths mp (isForkSplit mp) = .ok (l1, l2))
    (hu : isForkSplit mp = true → fwheelToHandlebarRef (geo.getD "lam" 0) l1 l2 = .ok (u1, u2))
    (n : String → ℕ) (alpha : String → ℕ → ℝ) (t : String → Part)
    (hparts : ∀ p ∈ frameParts (isForkSplit mp), MeasuredPart mp k g (geo.getD "lam" 0)
      (refPoint (geo.getD "rR" 0) (geo.getD "rF" 0) (geo.getD "w" 0) u1 u2 p) p (n p) (alpha p) (t p))
    (honly : ∀ key ∈ mp.keys, "alpha".toList <+: key.toList →
      ∃ p ∈ frameParts (isForkSplit mp), ("alpha" ++ p).toList <+: key.toList) :
    ∃ par lines, calculateBenchmark newton matInv mp = .ok (par, lines) ∧
      (∀ p ∈ frameParts (isForkSplit mp), partOf par p = t p) ∧
      par.find? "mF" = some mF ∧ par.find? "IFxx" = some IFxx ∧ par.find? "IFyy" = some IFyy ∧
      par.find? "mR" = some mR ∧ par.find? "IRxx" = some IRxx ∧ par.find? "IRyy" = some IRyy ∧
      par.find? "g" = some g ∧
      ∀ s ∈ ["rF", "rR", "lam", "w", "c"], par.find? s = geo.find? s := by
  have hasOf : ∀ {s : String} {v : ℝ}, mp.find? s = some v → mp.has s = true := fun h =>
    (Dict.has_iff_exists _ _).2 ⟨_, h⟩
  have hB : "B" ∈ frameParts (isForkSplit mp) := by cases isForkSplit mp <;> simp [frameParts]
  -- masses
  obtain ⟨p1, h2⟩ : ∃ p1, setMasses mp (isForkSplit mp) geo = .ok p1 := by
    have : Dict.require mp (["mB", "mF", "mR"] ++ (if isForkSplit mp then ["mS", "mG"] else ["mH"])) =
        .ok () := by
      rw [Dict.require_ok_iff]
      intro s hs
      have hF' := hasOf hF.mass
      have hR' := hasOf hR.mass
      have hB' := hasOf (hparts _ hB).mass
      cases hsp : isForkSplit mp with
      | false =>
        rw [hsp] at hparts hs
        have hH := hasOf (hparts "H" (by simp [frameParts])).mass
        simp at hs
        rcases hs with rfl | rfl | rfl | rfl
        exacts [hB', hF', hR', hH]
      | true =>
        rw [hsp] at hparts hs
        have hS := hasOf (hparts "S" (by simp [frameParts])).mass
        have hG := hasOf (hparts "G" (by simp [frameParts])).mass
        simp at hs
        rcases hs with rfl | rfl | rfl | rfl | rfl
        exacts [hB', hF', hR', hS, hG]
    unfold setMasses
    simp only [this]
    exact ⟨_, rfl⟩
  have hp1 : ∀ s ∈ ["rF", "rR", "lam", "w", "c"], p1.getD s 0 = geo.getD s 0 := by
    intro s hs
    unfold Dict.getD
    rw [(setMasses_ok mp geo p1 h2).2.2 s (mem_dis (by simp) hs)]
  -- lines
  obtain ⟨lines, h4⟩ : ∃ lines, partComLines mp p1 (isForkSplit mp) l1 l2 = .ok lines := by
    refine partComLines_succeeds mp p1 _ l1 l2 u1 u2 ?_ (by rwa [hp1 "lam" (by simp)])
    intro key hk hpre
    obtain ⟨p, hp, hpp⟩ := honly key hk hpre
    obtain ⟨i, hi, rfl⟩ := (hparts p hp).orient.2 key hk hpp
    exact ⟨p, hp, i, rfl, hasOf ((hparts p hp).distance i hi)⟩
  have hkeys : lines.keys = frameParts (isForkSplit mp) :=
    (C77_part_com_lines mp p1 (isForkSplit mp) l1 l2 lines h4).1
  have hparts' : ∀ p ∈ frameParts (isForkSplit mp), MeasuredPart mp k g (p1.getD "lam" 0)
      (refPoint (p1.getD "rR" 0) (p1.getD "rF" 0) (p1.getD "w" 0) u1 u2 p) p (n p) (alpha p) (t p) := by
    intro p hp
    rw [hp1 "lam" (by simp), hp1 "rR" (by simp), hp1 "rF" (by simp), hp1 "w" (by simp)]
    exact hparts p hp
  have hlines : ∀ p ∈ frameParts (isForkSplit mp), ∃ l, (p, l) ∈ lines ∧ l.length = n p ∧
      centerOfMass (l.map fun t => (t.1, t.2.1)) = .ok ((t p).x, (t p).z) ∧
      ∀ i (hi : i < l.length), (l[i]).2.2 = p1.getD "lam" 0 - alpha p i * π / 180 := by
    intro p hp
    refine lines_concurrent h4 hnd p hp u1 u2 k g (n p) (alpha p) (t p) ?_ (hparts' p hp)
    intro e
    rw [hp1 "lam" (by simp)]
    apply hu
    cases hsp : isForkSplit mp with
    | true => rfl
    | false => rw [e, hsp] at hp; simp [frameParts] at hp
  have hkn : lines.keys.Nodup := by rw [hkeys]; cases isForkSplit mp <;> simp [frameParts]
  have hlines' : ∀ p l, (p, l) ∈ lines → p ∈ frameParts (isForkSplit mp) ∧ l.length = n p ∧
      centerOfMass (l.map fun t => (t.1, t.2.1)) = .ok ((t p).x, (t p).z) ∧
      ∀ i (hi : i < l.length), (l[i]).2.2 = p1.getD "lam" 0 - alpha p i * π / 180 := by
    intro p l hm
    have hp : p ∈ frameParts (isForkSplit mp) := by
      rw [← hkeys]; exact List.mem_map_of_mem (f := Prod.fst) hm
    obtain ⟨l', hl', r⟩ := hlines p hp
    have : l' = l := by
      have e1 := Dict.find?_of_mem hkn hm
      have e2 := Dict.find?_of_mem hkn hl'
      rw [e1] at e2; exact (Option.some.inj e2).symm
    subst this
    exact ⟨hp, r⟩
  -- centres
  obtain ⟨p2, h5⟩ : ∃ p2, setCentres lines p1 = .ok p2 := by
    refine foldlM_succeeds (fun _ => True) _ _ ?_ _ trivial
    rintro acc ⟨p, l⟩ - hm
    unfold centreStep
    simp only [(hlines' p l hm).2.2.1]
    exact ⟨_, rfl, trivial⟩
  have h6 : ∃ v, splitRef (if isForkSplit mp then setSplitCentre p2 else p2) (isForkSplit mp) l1 l2 = .ok v := by
    unfold splitRef
    cases hsp : isForkSplit mp with
    | false => exact ⟨_, rfl⟩
    | true =>
      simp only [if_true]
      have : Dict.getD (setSplitCentre p2) "lam" 0 = geo.getD "lam" 0 := by
        rw [← hp1 "lam" (by simp)]
        unfold Dict.getD
        rw [setSplitCentre_frame p2 "lam" (by simp), (setCentres_ok lines p1 p2 hkeys h5).2 "lam" (by simp)]
      rw [this]
      exact ⟨_, hu hsp⟩
  obtain ⟨⟨v1, v2⟩, h6⟩ := h6
  -- y inertias
  obtain ⟨p3, h7⟩ : ∃ p3, setYInertias mp (isForkSplit mp) v1 v2
      (if isForkSplit mp then setSplitCentre p2 else p2) = .ok p3 := by
    have : Dict.require mp (["g", "mF", "lF", "TcF1", "mR", "lR", "TcR1", "mB", "TcB1"] ++
        (if isForkSplit mp then ["mS", "TcS1", "mG", "TcG1"] else ["mH", "TcH1"])) = .ok () := by
      rw [Dict.require_ok_iff]
      intro s hs
      have q1 := hasOf hg
      have q2 := hasOf hF.mass
      have q3 := hasOf hF.length
      have q4 := hasOf hF.compound
      have q5 := hasOf hR.mass
      have q6 := hasOf hR.length
      have q7 := hasOf hR.compound
      have q8 := hasOf (hparts _ hB).mass
      have q9 := hasOf (hparts _ hB).compound
      cases hsp : isForkSplit mp with
      | false =>
        rw [hsp] at hparts hs
        have q10 := hasOf (hparts "H" (by simp [frameParts])).mass
        have q11 := hasOf (hparts "H" (by simp [frameParts])).compound
        simp at hs
        rcases hs with rfl | rfl | rfl | rfl | rfl | rfl | rfl | rfl | rfl | rfl | rfl
        exacts [q1, q2, q3, q4, q5, q6, q7, q8, q9, q10, q11]
      | true =>
        rw [hsp] at hparts hs
        have q10 := hasOf (hparts "S" (by simp [frameParts])).mass
        have q11 := hasOf (hparts "S" (by simp [frameParts])).compound
        have q12 := hasOf (hparts "G" (by simp [frameParts])).mass
        have q13 := hasOf (hparts "G" (by simp [frameParts])).compound
        simp at hs
        rcases hs with rfl | rfl | rfl | rfl | rfl | rfl | rfl | rfl | rfl | rfl | rfl | rfl | rfl
        exacts [q1, q2, q3, q4, q5, q6, q7, q8, q9, q10, q11, q12, q13]
    unfold setYInertias
    simp only [this]
    split_ifs <;> exact ⟨_, rfl⟩
  have h8 := stiffness_of_rod hrod
  obtain ⟨p4, h9⟩ : ∃ p4, setWheelInertias mp k p3 = .ok p4 := by
    have : Dict.require mp ["TtF1", "TtR1"] = .ok () := by
      rw [Dict.require_ok_iff]
      intro s hs
      simp only [List.mem_cons, List.not_mem_nil, or_false] at hs
      rcases hs with rfl | rfl
      · exact hasOf hF.torsional
      · exact hasOf hR.torsional
    unfold setWheelInertias
    simp only [this]
    exact ⟨_, rfl⟩
  -- in-plane inertias
  obtain ⟨p5, h10⟩ : ∃ p5, setInPlane matInv mp k lines p4 = .ok p5 := by
    refine foldlM_succeeds (fun _ => True) _ _ ?_ _ trivial
    rintro acc ⟨p, l⟩ - hm
    obtain ⟨hp, hlen, -, -⟩ := hlines' p l hm
    have : Dict.require mp ((List.range l.length).map (ttKey p)) = .ok () := by
      rw [Dict.require_ok_iff]
      intro s hs
      obtain ⟨i, hi, rfl⟩ := List.mem_map.1 hs
      exact hasOf ((hparts p hp).torsional i (hlen ▸ List.mem_range.1 hi))
    unfold inPlaneStep
    simp only [this]
    exact ⟨_, rfl, trivial⟩
  obtain ⟨out, h11⟩ : ∃ out, (if isForkSplit mp then setSplitInertia p5 else .ok p5) = .ok out := by
    cases hsp : isForkSplit mp with
    | false => exact ⟨_, rfl⟩
    | true =>
      rw [hsp] at h7 hkeys hlines
      obtain ⟨c0, c1, c2, c3, c4, c5, c6, c7, c8⟩ := setYInertias_ok mp v1 v2 _ p3 h7
      obtain ⟨e1, e2, e3, e4, e5, e6⟩ := setWheelInertias_ok mp k p3 p4 h9
      obtain ⟨f1, f2⟩ := setInPlane_ok matInv mp k lines p4 p5 hkeys h10
      have hasOut : ∀ {s : String} {v : ℝ}, p5.find? s = some v → p5.has s = true := fun h =>
        (Dict.has_iff_exists _ _).2 ⟨_, h⟩
      have hxx : ∀ p ∈ frameParts true, p5.has ("I" ++ p ++ "xx") = true ∧
          p5.has ("I" ++ p ++ "xz") = true ∧ p5.has ("I" ++ p ++ "zz") = true := by
        intro p hp
        obtain ⟨l, hl, -⟩ := hlines p hp
        obtain ⟨-, r1, r2, r3⟩ := f1 p l hl
        exact ⟨hasOut r1, hasOut r2, hasOut r3⟩
      have hSyy : p5.has "ISyy" = true := by
        apply hasOut; rw [f2 _ (by simp), e6 _ (by simp), (c7 rfl).1]
      have hGyy : p5.has "IGyy" = true := by
        apply hasOut; rw [f2 _ (by simp), e6 _ (by simp), (c7 rfl).2]
      obtain ⟨b1, -, -⟩ := hxx "B" (by simp [frameParts])
      obtain ⟨s1, s2, s3⟩ := hxx "S" (by simp [frameParts])
      obtain ⟨g1, g2, g3⟩ := hxx "G" (by simp [frameParts])
      have tens : ∀ p, p ∉ ["F", "R", "D", "FR", "RD", "FRD", ""] → p5.has "IBxx" = true →
          p5.has ("I" ++ p ++ "xx") = true → p5.has ("I" ++ p ++ "xz") = true →
          p5.has ("I" ++ p ++ "yy") = true → p5.has ("I" ++ p ++ "zz") = true →
          ∃ I, partInertiaTensor p5 p = .ok I := by
        intro p hp r0 r1 r2 r3 r4
        have : Dict.require p5 ["IBxx", "I" ++ p ++ "xx", "I" ++ p ++ "xz", "I" ++ p ++ "yy",
            "I" ++ p ++ "zz"] = .ok () := by
          rw [Dict.require_ok_iff]
          intro s hs
          simp only [List.mem_cons, List.not_mem_nil, or_false] at hs
          rcases hs with rfl | rfl | rfl | rfl | rfl
          exacts [r0, r1, r2, r3, r4]
        unfold partInertiaTensor
        simp only [if_neg hp, this]
        exact ⟨_, rfl⟩
      obtain ⟨IG, hIG⟩ := tens "G" (by simp) b1 g1 g2 hGyy g3
      obtain ⟨IS, hIS⟩ := tens "S" (by simp) b1 s1 s2 hSyy s3
      simp only [if_true]
      unfold setSplitInertia
      simp only [hIG, hIS]
      exact ⟨_, rfl⟩
  have hcalc := calculateBenchmark_of_stages hgeo h2 hl h4 h5 h6 h7 h8 h9 h10 h11
  refine ⟨out, lines, hcalc, ?_⟩
  obtain ⟨geo', p1', l1', l2', u1', u2', k', f1, f2, f3, f4, f5, f6, f7, f8, f9, f10, f11, f12, f13, f14,
    f15, f16, f17, f18, f19, f20, f21⟩ := calculateBenchmark_facts hcalc
  obtain rfl : geo = geo' := by rw [hgeo] at f1; exact Except.ok.inj f1
  obtain rfl : k = k' := by rw [f14]; exact (torsionStiffness_ok mp k h8).2
  have hu' : isForkSplit mp = true → u1' = u1 ∧ u2' = u2 := by
    intro hsp
    have e1 := f3 hsp
    rw [hl] at f2
    simp only [Except.ok.injEq, Prod.mk.injEq] at f2
    rw [← f2.1, ← f2.2, hu hsp] at e1
    simp only [Except.ok.injEq, Prod.mk.injEq] at e1
    exact ⟨e1.1.symm, e1.2.symm⟩
  have gD : ∀ {s : String} {v : ℝ}, mp.find? s = some v → mp.getD s 0 = v := fun h =>
    Dict.getD_eq_of_find? _ _ _ _ h
  have oD : ∀ {s : String} {v : ℝ}, out.find? s = some v → out.getD s 0 = v := fun h =>
    Dict.getD_eq_of_find? _ _ _ _ h
  have hkpos := hrod.stiff_pos
  have hgeoD : ∀ s ∈ ["rF", "rR", "lam", "w", "c"], out.getD s 0 = geo.getD s 0 := by
    intro s hs
    unfold Dict.getD; rw [(f5 s hs).1]
  have hx : ∀ p ∈ frameParts (isForkSplit mp), out.getD ("x" ++ p) 0 = (t p).x ∧
      out.getD ("z" ++ p) 0 = (t p).z := by
    intro p hp
    obtain ⟨l, hm, -, hc, -⟩ := hlines p hp
    obtain ⟨x, z, e1, e2, e3⟩ := f7 p l hm
    rw [hc] at e1
    simp only [Except.ok.injEq, Prod.mk.injEq] at e1
    rw [oD e2, oD e3, e1.1, e1.2]
    exact ⟨rfl, rfl⟩
  have hI : ∀ p ∈ frameParts (isForkSplit mp), out.getD ("I" ++ p ++ "xx") 0 = (t p).Ixx ∧
      out.getD ("I" ++ p ++ "xz") 0 = (t p).Ixz ∧ out.getD ("I" ++ p ++ "zz") 0 = (t p).Izz := by
    intro p hp
    obtain ⟨l, hm, hlen, -, hb⟩ := hlines p hp
    obtain ⟨-, e1, e2, e3⟩ := f17 p l hm
    have hP := hparts' p hp
    have hbeta : (fun i : Fin l.length => (l[i]).2.2) =
        fun i : Fin l.length => p1.getD "lam" 0 - alpha p i * π / 180 := funext fun i => hb i i.2
    have hpen : (fun i : Fin l.length => torInertia k (Dict.getD mp (ttKey p i) 0)) =
        fun i : Fin l.length => measuredInertia (t p).Ixx (t p).Ixz (t p).Iyy (t p).Izz
          ((fun i : Fin l.length => p1.getD "lam" 0 - alpha p i * π / 180) i) := by
      funext i
      have hi : i.1 < n p := hlen ▸ i.2
      rw [ttKey, gD (hP.torsional i hi), torInertia_of_period k _ hkpos (hP.inPlane i hi),
        axisMoment_axisDir]
    have h3 := hP.three
    have key : inPlaneOf matInv mp k (p, l) = ![(t p).Ixx, (t p).Ixz, (t p).Izz] := by
      unfold inPlaneOf
      simp only []
      rw [hbeta, hpen]
      refine C24_inertia_components_exact (matInv l.length) (hinv l.length) _ _ _ _ _
        ⟨0, by omega⟩ ⟨1, by omega⟩ ⟨2, by omega⟩ ?_ ?_ ?_
      · exact hP.distinct 0 (by omega) 1 (by omega) (by omega)
      · exact hP.distinct 0 (by omega) 2 (by omega) (by omega)
      · exact hP.distinct 1 (by omega) 2 (by omega) (by omega)
    rw [oD e1, oD e2, oD e3, key]
    exact ⟨rfl, rfl, rfl⟩
  have hpart : ∀ p ∈ frameParts (isForkSplit mp), out.getD ("m" ++ p) 0 = (t p).m →
      out.getD ("I" ++ p ++ "yy") 0 = (t p).Iyy → partOf out p = t p := by
    intro p hp e1 e2
    obtain ⟨x1, x2⟩ := hx p hp
    obtain ⟨i1, i2, i3⟩ := hI p hp
    have hy := (hparts p hp).plane
    simp only [partOf, e1, e2, x1, x2, i1, i2, i3]
    rw [← hy]
  have hcomp : ∀ p (hp : p ∈ frameParts (isForkSplit mp)) (L : ℝ),
      L = arm (refPoint (geo.getD "rR" 0) (geo.getD "rF" 0) (geo.getD "w" 0) u1 u2 p) (t p) →
      compoundPendulumInertia (mp.getD ("m" ++ p) 0) (mp.getD "g" 0) L (mp.getD ("Tc" ++ p ++ "1") 0) =
        (t p).Iyy := by
    intro p hp L hL
    have hP := hparts p hp
    rw [hL, gD hg, gD hP.mass, gD hP.compound]
    exact compound_of_period _ _ _ _ hP.mass_pos hgpos hP.arm_pos hP.iyy
  have hmass : ∀ p ∈ frameParts (isForkSplit mp), out.getD ("m" ++ p) 0 = (t p).m := by
    intro p hp
    have hmem : "m" ++ p ∈ ["mB", "mF", "mR"] ++ (if isForkSplit mp then ["mS", "mG"] else ["mH"]) := by
      cases hsp : isForkSplit mp <;> rw [hsp] at hp <;> simp [frameParts] at hp
      · rcases hp with rfl | rfl <;> simp
      · rcases hp with rfl | rfl | rfl <;> simp
    rw [oD (f6 _ hmem).2, gD (hparts p hp).mass]
  refine ⟨?_, ?_, ?_, ?_, ?_, ?_, ?_, ?_, fun s hs => (f5 s hs).1⟩
  · intro p hp
    refine hpart p hp (hmass p hp) ?_
    obtain ⟨x1, x2⟩ := hx p hp
    have hBB : out.getD "IByy" 0 = (t "B").Iyy := by
      obtain ⟨y1, y2⟩ := hx "B" hB
      rw [oD f11]
      refine hcomp "B" hB _ ?_
      rw [show "xB" = "x" ++ "B" from rfl, show "zB" = "z" ++ "B" from rfl, y1, y2, hgeoD "rR" (by simp)]
      simp [arm, refPoint]
    cases hsp : isForkSplit mp with
    | false =>
      rw [hsp] at hp
      simp only [frameParts, Bool.false_eq_true, if_false, List.mem_cons, List.not_mem_nil, or_false] at hp
      rcases hp with rfl | rfl
      · exact hBB
      · rw [show "I" ++ "H" ++ "yy" = "IHyy" from rfl, oD (f12 hsp)]
        refine hcomp "H" (by rw [hsp]; simp [frameParts]) _ ?_
        rw [show "xH" = "x" ++ "H" from rfl, show "zH" = "z" ++ "H" from rfl, x1, x2,
          hgeoD "rF" (by simp), hgeoD "w" (by simp)]
        simp [arm, refPoint]
    | true =>
      obtain ⟨r1, r2⟩ := f13 hsp
      obtain ⟨rfl, rfl⟩ := hu' hsp
      rw [hsp] at hp
      simp only [frameParts, if_true, List.mem_cons, List.not_mem_nil, or_false] at hp
      rcases hp with rfl | rfl | rfl
      · exact hBB
      · rw [show "I" ++ "G" ++ "yy" = "IGyy" from rfl, oD r2]
        refine hcomp "G" (by rw [hsp]; simp [frameParts]) _ ?_
        rw [show "xG" = "x" ++ "G" from rfl, show "zG" = "z" ++ "G" from rfl, x1, x2,
          hgeoD "rF" (by simp), hgeoD "w" (by simp)]
        simp only [arm, refPoint]
        simp
        congr 1
        ring
      · rw [show "I" ++ "S" ++ "yy" = "ISyy" from rfl, oD r1]
        refine hcomp "S" (by rw [hsp]; simp [frameParts]) _ ?_
        rw [show "xS" = "x" ++ "S" from rfl, show "zS" = "z" ++ "S" from rfl, x1, x2,
          hgeoD "rF" (by simp), hgeoD "w" (by simp)]
        simp [arm, refPoint]
  · rw [(f6 "mF" (by simp)).2]; exact congrArg some (gD hF.mass)
  · have := gD hF.torsional
    rw [f15, show "TtF1" = "Tt" ++ "F" ++ "1" from rfl, this, torInertia_of_period k _ hkpos hF.ixx]
  · rw [f9, show "TcF1" = "Tc" ++ "F" ++ "1" from rfl, gD hF.compound,
      show "mF" = "m" ++ "F" from rfl, gD hF.mass, show "lF" = "l" ++ "F" from rfl, gD hF.length, gD hg,
      compound_of_period _ _ _ _ hF.mass_pos hgpos hF.length_pos hF.iyy]
  · rw [(f6 "mR" (by simp)).2]; exact congrArg some (gD hR.mass)
  · have := gD hR.torsional
    rw [f16, show "TtR1" = "Tt" ++ "R" ++ "1" from rfl, this, torInertia_of_period k _ hkpos hR.ixx]
  · rw [f10, show "TcR1" = "Tc" ++ "R" ++ "1" from rfl, gD hR.compound,
      show "mR" = "m" ++ "R" from rfl, gD hR.mass, show "lR" = "l" ++ "R" from rfl, gD hR.length, gD hg,
      compound_of_period _ _ _ _ hR.mass_pos hgpos hR.length_pos hR.iyy]
  · rw [f8, gD hg]

/-! ## Non-vacuity: a bicycle with a separate handlebar and a flywheel -/

/-- What is measured on a separate handlebar: with the fork lying on a table, steer axis parallel
to it, the heights `h6`, `h7` of the tops of the axle (diameter `d5`) and of the reference circle
(diameter `d6`) and the outer distance `l` between them.  The circle's centre lies `l1` forward of
the axle, perpendicular to the steer axis, and `l2` up along it; on the upright bicycle with the
axis tilted by `lam` this is `u1` behind and `u2` above the front wheel centre. -/
structure Spec.MeasuredHandlebar (mp : Dict ℝ) (lam l1 l2 u1 u2 : ℝ) : Prop where
  heights : ∃ h6 h7 d5 d6 l, mp.find? "h6" = some h6 ∧ mp.find? "h7" = some h7 ∧
    mp.find? "d5" = some d5 ∧ mp.find? "d6" = some d6 ∧ mp.find? "l" = some l ∧
    (h7 - d6 / 2) - (h6 - d5 / 2) = l1 ∧ l = d5 / 2 + √(l1 ^ 2 + l2 ^ 2) + d6 / 2
  up : 0 < l2
  tilt : sin lam ≠ 0
  behind : u1 = l2 * sin lam - l1 * cos lam
  above : u2 = l2 * cos lam + l1 * sin lam

theorem measured_handlebar_lengths {mp : Dict ℝ} {lam l1 l2 u1 u2 : ℝ}
    (h : Spec.MeasuredHandlebar mp lam l1 l2 u1 u2) :
    splitLengths mp true = .ok (l1, l2) ∧ fwheelToHandlebarRef lam l1 l2 = .ok (u1, u2) := by
  obtain ⟨⟨h6, h7, d5, d6, l, f6, f7, f5, f8, fl, e1, e2⟩, hup, ht, hb, ha⟩ := h
  constructor
  · have hreq : Dict.require mp ["h6", "h7", "d5", "d6", "l"] = .ok () := by
      rw [Dict.require_ok_iff]
      intro s hs
      simp only [List.mem_cons, List.not_mem_nil, or_false] at hs
      rcases hs with rfl | rfl | rfl | rfl | rfl <;> exact (Dict.has_iff_exists _ _).2 ⟨_, by assumption⟩
    unfold splitLengths
    simp only [if_true, hreq, Dict.getD_eq_of_find? _ _ _ _ f6, Dict.getD_eq_of_find? _ _ _ _ f7,
      Dict.getD_eq_of_find? _ _ _ _ f5, Dict.getD_eq_of_find? _ _ _ _ f8, Dict.getD_eq_of_find? _ _ _ _ fl]
    have hpos : 0 < l1 ^ 2 + l2 ^ 2 := by positivity
    set D := √(l1 ^ 2 + l2 ^ 2) with hD
    have hDpos : 0 < D := Real.sqrt_pos.2 hpos
    have hDsq : D ^ 2 = l1 ^ 2 + l2 ^ 2 := Real.sq_sqrt hpos.le
    have hl0 : l - d5 / 2 - d6 / 2 = D := by linarith
    have hl1 : h7 - h6 + d5 / 2 - d6 / 2 = l1 := by linarith
    have habs : |l1| ≤ D := Real.abs_le_sqrt (by nlinarith)
    have hr : |l1 / D| ≤ 1 := by
      rw [abs_div, abs_of_pos hDpos]; exact (div_le_one hDpos).2 habs
    have hr' := abs_le.1 hr
    unfold calculateL1L2
    simp only [hl0, hl1, if_neg hDpos.ne']
    rw [if_neg (by push Not; exact hr')]
    have hc : D * cos (arcsin (l1 / D)) = l2 := by
      rw [Real.cos_arcsin]
      have e : 1 - (l1 / D) ^ 2 = (l2 / D) ^ 2 := by
        field_simp; linarith
      rw [e, Real.sqrt_sq (by positivity)]
      field_simp
    rw [hc]
  · unfold fwheelToHandlebarRef
    simp only [if_neg ht, Except.ok.injEq, Prod.mk.injEq]
    refine ⟨hb.symm, ?_⟩
    have hsc := sin_sq_add_cos_sq lam
    rw [ha]
    by_cases hc : cos lam = 0
    · rw [Real.tan_eq_sin_div_cos, hc]
      have : sin lam ^ 2 = 1 := by rw [hc] at hsc; linarith
      field_simp
      simp
      linear_combination (-l1) * this
    · rw [Real.tan_eq_sin_div_cos]
      field_simp
      linear_combination (-l1) * hsc

/-- **C81.** If the file contains what is measured on a bicycle of rigid bodies (rod, wheels,
frame B, and fork/handlebar H or, separately, fork S and handlebar G), then the calculation
succeeds and returns the bodies: masses, mass centres and inertias of all parts, exactly. -/
theorem C81_measuring_and_computing {newton : (ℝ → ℝ) → ℝ → Except PyErr ℝ}
    {matInv : ∀ n, Matrix (Fin n) (Fin 3) ℝ → Matrix (Fin 3) (Fin n) ℝ}
    (hinv : ∀ n (A : Matrix (Fin n) (Fin 3) ℝ), A * matInv n A * A = A)
    (mp geo : Dict ℝ) (hnd : mp.keys.Nodup) (hgeo : calculateBenchmarkGeometry newton mp [] = .ok geo)
    (g k mP lP dP : ℝ) (hg : mp.find? "g" = some g) (hgpos : 0 < g) (hrod : MeasuredRod mp k mP lP dP)
    (mF lF IFxx IFyy mR lR IRxx IRyy : ℝ) (hF : MeasuredWheel mp k g "F" mF lF IFxx IFyy)
    (hR : MeasuredWheel mp k g "R" mR lR IRxx IRyy)
    (l1 l2 u1 u2 : ℝ) (hbar : isForkSplit mp = true → MeasuredHandlebar mp (geo.getD "lam" 0) l1 l2 u1 u2)
    (n : String → ℕ) (alpha : String → ℕ → ℝ) (t : String → Part)
    (hparts : ∀ p ∈ frameParts (isForkSplit mp), MeasuredPart mp k g (geo.getD "lam" 0)
      (refPoint (geo.getD "rR" 0) (geo.getD "rF" 0) (geo.getD "w" 0) u1 u2 p) p (n p) (alpha p) (t p))
    (honly : ∀ key ∈ mp.keys, "alpha".toList <+: key.toList →
      ∃ p ∈ frameParts (isForkSplit mp), ("alpha" ++ p).toList <+: key.toList) :
    ∃ par lines, calculateBenchmark newton matInv mp = .ok (par, lines) ∧
      (∀ p ∈ frameParts (isForkSplit mp), partOf par p = t p) ∧
      par.find? "mF" = some mF ∧ par.find? "IFxx" = some IFxx ∧ par.find? "IFyy" = some IFyy ∧
      par.find? "mR" = some mR ∧ par.find? "IRxx" = some IRxx ∧ par.find? "IRyy" = some IRyy ∧
      par.find? "g" = some g ∧
      ∀ s ∈ ["rF", "rR", "lam", "w", "c"], par.find? s = geo.find? s := by
  cases hsp : isForkSplit mp with
  | true =>
    obtain ⟨hl, hu⟩ := measured_handlebar_lengths (hbar hsp)
    have := measuring_and_computing_of_ref hinv mp geo hnd hgeo g k mP lP dP hg hgpos hrod mF lF IFxx IFyy
      mR lR IRxx IRyy hF hR l1 l2 u1 u2 (by rw [hsp]; exact hl) (fun _ => hu) n alpha t hparts honly
    rwa [hsp] at this
  | false =>
    have := measuring_and_computing_of_ref hinv mp geo hnd hgeo g k mP lP dP hg hgpos hrod mF lF IFxx IFyy
      mR lR IRxx IRyy hF hR 0 0 u1 u2 (by rw [hsp]; rfl) (fun h => by rw [hsp] at h; cases h) n alpha t
      hparts honly
    rwa [hsp] at this

/-- Three orientations at which the axes lie at 0, -45 and 45 degrees. -/
def exAlpha (i : ℕ) : ℝ := if i = 0 then 30 else if i = 1 then 75 else -15

/-- The steer axis tilt of the example. -/
noncomputable def exLam : ℝ := π / 180 * (90 - 60)

/-- The measurements of one part of the example (stiffness 1, gravity 1). -/
noncomputable def exPart (ref : ℝ × ℝ) (p : String) (t : Part) : Dict ℝ :=
  let b := fun i => exLam - exAlpha i * π / 180
  let a := fun i => (ref.1 - t.x) * sin (b i) + (ref.2 - t.z) * cos (b i)
  let T := fun i => 2 * π * √(axisMoment t.tensor (axisDir (b i)) / 1)
  [("m" ++ p, t.m), ("Tc" ++ p ++ "1", 2 * π * √((t.Iyy + t.m * arm ref t ^ 2) / (t.m * 1 * arm ref t))),
   ("alpha" ++ p ++ "1", exAlpha 0), ("alpha" ++ p ++ "2", exAlpha 1), ("alpha" ++ p ++ "3", exAlpha 2),
   ("a" ++ p ++ "1", a 0), ("a" ++ p ++ "2", a 1), ("a" ++ p ++ "3", a 2),
   ("Tt" ++ p ++ "1", T 0), ("Tt" ++ p ++ "2", T 1), ("Tt" ++ p ++ "3", T 2)]

/-- A wheel of the example. -/
noncomputable def exWheel (p : String) : Dict ℝ :=
  [("m" ++ p, 1), ("l" ++ p, 1), ("Tc" ++ p ++ "1", 2 * π * √((1 + 1 * 1 ^ 2) / (1 * 1 * 1))),
   ("Tt" ++ p ++ "1", 2 * π * √(1 / 1))]

/-- The bodies of the example. -/
def exBody (p : String) : Part :=
  if p = "B" then ⟨2, 1, 0, -1, 2, 1, 3, 2⟩ else if p = "G" then ⟨1, 0, 0, 1, 1, 0, 1, 1⟩
  else ⟨1, 2, 0, -1, 1, 0, 1, 1⟩

noncomputable def exU1 : ℝ := 1 * sin exLam - 0 * cos exLam

noncomputable def exU2 : ℝ := exU1 / tan exLam + 0 / sin exLam

noncomputable def exMp : Dict ℝ :=
  [("dF", 1), ("nF", 1), ("dR", 1), ("nR", 1), ("w", 1), ("gamma", 60), ("f", 0), ("g", 1),
   ("h6", 2), ("h7", 2), ("d5", 1 / 5), ("d6", 1 / 5), ("l", 6 / 5),
   ("mP", 1), ("lP", 1), ("dP", 1), ("TtP1", 2 * π * √(1 * (3 * (1 / 2) ^ 2 + 1 ^ 2) / 12 / 1)),
   ("mD", 2), ("TcD1", 1), ("TtD1", 1)] ++ exWheel "F" ++ exWheel "R" ++
  exPart (0, -wheelRadius 1 1) "B" (exBody "B") ++
  exPart (1 - exU1, -(wheelRadius 1 1 + exU2)) "G" (exBody "G") ++
  exPart (1, -wheelRadius 1 1) "S" (exBody "S")

theorem exMp_keys : exMp.keys = ["dF", "nF", "dR", "nR", "w", "gamma", "f", "g", "h6", "h7", "d5", "d6",
    "l", "mP", "lP", "dP", "TtP1", "mD", "TcD1", "TtD1", "mF", "lF", "TcF1", "TtF1", "mR", "lR", "TcR1",
    "TtR1", "mB", "TcB1", "alphaB1", "alphaB2", "alphaB3", "aB1", "aB2", "aB3", "TtB1", "TtB2", "TtB3",
    "mG", "TcG1", "alphaG1", "alphaG2", "alphaG3", "aG1", "aG2", "aG3", "TtG1", "TtG2", "TtG3",
    "mS", "TcS1", "alphaS1", "alphaS2", "alphaS3", "aS1", "aS2", "aS3", "TtS1", "TtS2", "TtS3"] := by
  simp [exMp, exWheel, exPart, Dict.keys]

theorem exMp_nodup : exMp.keys.Nodup := by rw [exMp_keys]; decide

theorem exMp_split : isForkSplit exMp = true := by
  unfold isForkSplit; rw [exMp_keys]; decide

theorem exMp_only : ∀ key ∈ exMp.keys, "alpha".toList <+: key.toList →
    ∃ p ∈ frameParts true, ("alpha" ++ p).toList <+: key.toList := by
  rw [exMp_keys]; decide

theorem exMp_orientations (p : String) (hp : p ∈ frameParts true) : Orientations exMp p 3 := by
  simp only [frameParts, if_true, List.mem_cons, List.not_mem_nil, or_false] at hp
  unfold Orientations
  simp only [Dict.has_iff_mem_keys]
  rw [exMp_keys]
  rcases hp with rfl | rfl | rfl <;> decide

theorem exMp_geo : ∃ geo, calculateBenchmarkGeometry (fun _ x => .ok x) exMp [] = .ok geo ∧
    geo.getD "lam" 0 = exLam ∧ geo.getD "w" 0 = 1 ∧ geo.getD "rR" 0 = wheelRadius 1 1 ∧
    geo.getD "rF" 0 = wheelRadius 1 1 := by
  refine ⟨_, by
    simp [calculateBenchmarkGeometry, frameGeometry, Dict.require, exMp, Dict.find?, Dict.has, Dict.getD,
      transferLateral, exWheel, exPart]
    rfl, ?_⟩
  simp [Dict.getD_set, exLam]

theorem exMp_find {k : String} {v : ℝ} (h : (k, v) ∈ exMp) : exMp.find? k = some v :=
  Dict.find?_of_mem exMp_nodup h

theorem exBeta : exLam - exAlpha 0 * π / 180 = 0 ∧ exLam - exAlpha 1 * π / 180 = -(π / 4) ∧
    exLam - exAlpha 2 * π / 180 = π / 4 := by
  refine ⟨?_, ?_, ?_⟩ <;> simp [exLam, exAlpha] <;> ring

theorem exMeasured (ref : ℝ × ℝ) (p : String) (hp : p ∈ frameParts true) (t : Part)
    (hsub : ∀ e ∈ exPart ref p t, e ∈ exMp) (hm : 0 < t.m) (hy : t.y = 0) (hI : 0 ≤ t.Iyy)
    (harm : 0 < arm ref t)
    (hpos : ∀ i < 3, 0 ≤ axisMoment t.tensor (axisDir (exLam - exAlpha i * π / 180))) :
    MeasuredPart exMp 1 1 exLam ref p 3 exAlpha t := by
  obtain ⟨b0, b1, b2⟩ := exBeta
  have hs4 : sin (π / 4) ≠ 0 := by rw [sin_pi_div_four]; positivity
  have hc4 : cos (π / 4) ≠ 0 := by rw [cos_pi_div_four]; positivity
  have e : π / 4 - -(π / 4) = π / 2 := by ring
  have e' : -(π / 4) - π / 4 = -(π / 2) := by ring
  refine ⟨?_, hm, hy, hI, le_rfl, by norm_num, exMp_orientations p hp, harm, ?_, ?_, ?_, ?_, ?_, hpos, ?_⟩
  · exact exMp_find (hsub _ (by simp [exPart]))
  · exact exMp_find (hsub _ (by simp [exPart]))
  · intro i hi
    interval_cases i <;> exact exMp_find (hsub _ (by simp [exPart, show Nat.repr 1 = "1" from rfl, show Nat.repr 2 = "2" from rfl, show Nat.repr 3 = "3" from rfl]))
  · intro i hi
    interval_cases i
    · rw [b0]; simp
    · rw [b1, cos_neg]; exact hc4
    · rw [b2]; exact hc4
  · intro i hi j hj hij
    interval_cases i <;> interval_cases j <;> (try exact absurd rfl hij) <;>
      simp only [b0, b1, b2, zero_sub, sub_zero, sin_neg, neg_neg, e, e', sin_pi_div_two] <;>
      first | exact hs4 | exact neg_ne_zero.2 hs4 | norm_num
  · intro i hi
    interval_cases i <;> exact exMp_find (hsub _ (by simp [exPart, show Nat.repr 1 = "1" from rfl, show Nat.repr 2 = "2" from rfl, show Nat.repr 3 = "3" from rfl]))
  · intro i hi
    interval_cases i <;> exact exMp_find (hsub _ (by simp [exPart, show Nat.repr 1 = "1" from rfl, show Nat.repr 2 = "2" from rfl, show Nat.repr 3 = "3" from rfl]))

theorem exAxis (p : String) (beta : ℝ) : 0 ≤ axisMoment (exBody p).tensor (axisDir beta) := by
  have hsc := sin_sq_add_cos_sq beta
  rw [axisMoment_axisDir]
  unfold exBody
  split_ifs <;>
    simp only [measuredInertia, rotateInertiaTensor, rotY, Matrix.mul_apply, Fin.sum_univ_three,
      Matrix.transpose_apply] <;> simp <;> nlinarith [sq_nonneg (sin beta - cos beta), sq_nonneg (sin beta + cos beta)]

theorem exLam_eq : exLam = π / 6 := by unfold exLam; ring

/-- non-vacuity of C41, C80 and C81: the example satisfies all their hypotheses. -/
theorem exMp_calculates (matInv : ∀ n, Matrix (Fin n) (Fin 3) ℝ → Matrix (Fin 3) (Fin n) ℝ)
    (hinv : ∀ n (A : Matrix (Fin n) (Fin 3) ℝ), A * matInv n A * A = A) :
    ∃ par lines, calculateBenchmark (fun _ x => .ok x) matInv exMp = .ok (par, lines) ∧
      ∀ p ∈ frameParts true, partOf par p = exBody p := by
  obtain ⟨geo, hgeo, g1, g2, g3, g4⟩ := exMp_geo
  have hsin : sin exLam ≠ 0 := by rw [exLam_eq, sin_pi_div_six]; norm_num
  have hw : 0 < wheelRadius 1 1 := by unfold wheelRadius; positivity
  have hwheel : ∀ p, (∀ e ∈ exWheel p, e ∈ exMp) → MeasuredWheel exMp 1 1 p 1 1 1 1 := by
    intro p hsub
    refine ⟨exMp_find (hsub _ (by simp [exWheel])), one_pos, exMp_find (hsub _ (by simp [exWheel])),
      one_pos, zero_le_one, zero_le_one, exMp_find (hsub _ (by simp [exWheel])),
      exMp_find (hsub _ (by simp [exWheel]))⟩
  have hU : exU1 = 1 / 2 ∧ exU2 = √3 / 2 := by
    have hs3 : √3 ^ 2 = 3 := Real.sq_sqrt (by norm_num)
    have h3 : √3 ≠ 0 := by positivity
    have h1 : exU1 = 1 / 2 := by simp [exU1, exLam_eq]
    refine ⟨h1, ?_⟩
    rw [exU2, h1, exLam_eq, tan_pi_div_six]
    field_simp
    nlinarith
  have hbar : Spec.MeasuredHandlebar exMp (geo.getD "lam" 0) 0 1 exU1 exU2 := by
    rw [g1]
    refine ⟨⟨_, _, _, _, _, exMp_find (v := 2) (by simp [exMp]), exMp_find (v := 2) (by simp [exMp]),
      exMp_find (v := 1 / 5) (by simp [exMp]), exMp_find (v := 1 / 5) (by simp [exMp]),
      exMp_find (v := 6 / 5) (by simp [exMp]), by norm_num, by norm_num⟩, one_pos, hsin, ?_, ?_⟩
    · rw [hU.1, exLam_eq, sin_pi_div_six]; norm_num
    · rw [hU.2, exLam_eq, cos_pi_div_six]; norm_num
  have hparts : ∀ p ∈ frameParts (isForkSplit exMp), MeasuredPart exMp 1 1 (geo.getD "lam" 0)
      (refPoint (geo.getD "rR" 0) (geo.getD "rF" 0) (geo.getD "w" 0) exU1 exU2 p) p 3 exAlpha (exBody p) := by
    rw [exMp_split, g1, g2, g3, g4]
    intro p hp
    have hp' := hp
    simp only [frameParts, if_true, List.mem_cons, List.not_mem_nil, or_false] at hp'
    have hsq : ∀ a b : ℝ, a ≠ 0 → 0 < √(a ^ 2 + b ^ 2) := fun a b ha => by positivity
    rcases hp' with rfl | rfl | rfl
    · refine exMeasured _ _ hp _ ?_ (by simp [exBody]) (by simp [exBody]) (by simp [exBody]) ?_
        fun i _ => exAxis _ _
      · intro e he
        simp only [refPoint] at he
        simp only [exMp, List.mem_append]
        exact Or.inl (Or.inl (Or.inr he))
      · refine hsq _ _ ?_; simp [exBody, refPoint]
    · refine exMeasured _ _ hp _ ?_ (by simp [exBody]) (by simp [exBody]) (by simp [exBody]) ?_
        fun i _ => exAxis _ _
      · intro e he
        simp only [refPoint] at he
        simp only [exMp, List.mem_append]
        exact Or.inl (Or.inr he)
      · refine hsq _ _ ?_; simp [exBody, refPoint, hU.1]; norm_num
    · refine exMeasured _ _ hp _ ?_ (by simp [exBody]) (by simp [exBody]) (by simp [exBody]) ?_
        fun i _ => exAxis _ _
      · intro e he
        simp only [refPoint] at he
        simp only [exMp, List.mem_append]
        exact Or.inr he
      · refine hsq _ _ ?_; simp [exBody, refPoint]; norm_num
  obtain ⟨par, lines, h, hp, -⟩ := C81_measuring_and_computing hinv exMp geo exMp_nodup hgeo 1 1 1 1 1
    (exMp_find (by simp [exMp])) one_pos
    ⟨exMp_find (by simp [exMp]), one_pos, exMp_find (by simp [exMp]), one_pos, exMp_find (by simp [exMp]),
      one_pos, exMp_find (by simp [exMp])⟩
    1 1 1 1 1 1 1 1 (hwheel "F" fun e he => by simp only [exMp, List.mem_append]; tauto)
    (hwheel "R" fun e he => by simp only [exMp, List.mem_append]; tauto) 0 1 exU1 exU2 (fun _ => hbar)
    (fun _ => 3) (fun _ => exAlpha) exBody hparts (by rw [exMp_split]; exact exMp_only)
  rw [exMp_split] at hp
  exact ⟨par, lines, h, hp⟩

/-- Generalised inverses exist for every matrix. -/
theorem exists_generalised_inverse : ∃ matInv : ∀ n, Matrix (Fin n) (Fin 3) ℝ → Matrix (Fin 3) (Fin n) ℝ,
    ∀ n (A : Matrix (Fin n) (Fin 3) ℝ), A * matInv n A * A = A := by
  have key : ∀ n (A : Matrix (Fin n) (Fin 3) ℝ), ∃ B : Matrix (Fin 3) (Fin n) ℝ, A * B * A = A := by
    intro n A
    obtain ⟨r, hr⟩ := A.toLin'.rangeRestrict.exists_rightInverse_of_surjective
      (LinearMap.range_rangeRestrict _)
    obtain ⟨q, hq⟩ := (LinearMap.range A.toLin').subtype.exists_leftInverse_of_injective
      (LinearMap.ker_eq_bot.2 Subtype.val_injective)
    refine ⟨LinearMap.toMatrix' (r ∘ₗ q), ?_⟩
    apply Matrix.toLin'.injective
    rw [Matrix.toLin'_mul, Matrix.toLin'_mul, Matrix.toLin'_toMatrix']
    refine LinearMap.ext fun x => ?_
    have h1 : q (A.toLin' x) = A.toLin'.rangeRestrict x := by
      have := LinearMap.congr_fun hq (A.toLin'.rangeRestrict x)
      simpa using this
    have h2 := LinearMap.congr_fun hr (A.toLin'.rangeRestrict x)
    have h3 := congrArg Subtype.val h2
    simp only [LinearMap.comp_apply, h1] at h3 ⊢
    simpa using h3
  choose f hf using key
  exact ⟨f, hf⟩

/-- non-vacuity of C41, C80 and C81 -/
example : ∃ (newton : (ℝ → ℝ) → ℝ → Except PyErr ℝ)
    (matInv : ∀ n, Matrix (Fin n) (Fin 3) ℝ → Matrix (Fin 3) (Fin n) ℝ) (mp par : Dict ℝ)
    (lines : Dict (List (ℝ × ℝ × ℝ))),
    calculateBenchmark newton matInv mp = .ok (par, lines) ∧ mp.has "mD" = true ∧
    isForkSplit mp = true ∧ mp.getD "mS" 0 + mp.getD "mG" 0 ≠ 0 ∧ Orientations mp "B" 3 := by
  obtain ⟨matInv, hinv⟩ := exists_generalised_inverse
  obtain ⟨par, lines, h, -⟩ := exMp_calculates matInv hinv
  refine ⟨_, matInv, exMp, par, lines, h, ?_, exMp_split, ?_, exMp_orientations _ (by simp [frameParts])⟩
  · rw [Dict.has_iff_mem_keys, exMp_keys]; decide
  · rw [Dict.getD_eq_of_find? _ _ _ _ (exMp_find (k := "mS") (v := 1) (by simp [exMp, exPart, exBody, exWheel])),
      Dict.getD_eq_of_find? _ _ _ _ (exMp_find (k := "mG") (v := 1) (by simp [exMp, exPart, exBody, exWheel]))]
    norm_num

/-! ## C53: the check counts periods, it does not look for the needed ones -/

/-- **C53 (what fails).** A complete set of measurements of a bicycle with a separate handlebar
can lose the rod's period: `check_for_period` still reports that no period is missing, but
`calculate_benchmark_from_measured` does not succeed, whatever the numerical routines return. -/
theorem C53_check_misses_a_needed_period : ∃ mp : Dict ℝ,
    (∃ matInv par lines, calculateBenchmark (fun _ x => .ok x) matInv mp = .ok (par, lines)) ∧
    isForkSplit (mp.filter fun kv => kv.1 ≠ "TtP1") = true ∧
    checkForPeriod (mp.filter fun kv => kv.1 ≠ "TtP1") true = false ∧
    ∀ newton matInv out, calculateBenchmark newton matInv (mp.filter fun kv => kv.1 ≠ "TtP1") ≠ .ok out := by
  obtain ⟨matInv, hinv⟩ := exists_generalised_inverse
  obtain ⟨par, lines, h, -⟩ := exMp_calculates matInv hinv
  have hk : Dict.keys (exMp.filter fun kv => kv.1 ≠ "TtP1") = exMp.keys.filter fun k => k ≠ "TtP1" := by
    simp only [Dict.keys, List.filter_map]
    rfl
  refine ⟨exMp, ⟨matInv, par, lines, h⟩, ?_, ?_, ?_⟩
  · unfold isForkSplit; rw [hk, exMp_keys]; decide
  · rw [C53_check_for_period, hk, exMp_keys]; decide
  · rintro newton mi ⟨out, ls⟩ h'
    obtain ⟨geo, p1, l1, l2, p2, u1, u2, p3, k, p4, p5, -, -, -, -, -, -, -, h8, -⟩ :=
      calculateBenchmark_stages h'
    have := (torsionStiffness_ok _ _ h8).1 "TtP1" (by simp)
    rw [Dict.has_iff_mem_keys, hk] at this
    simp at this

end BP
