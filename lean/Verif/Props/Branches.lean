import Mathlib.Topology.MetricSpace.UniformConvergence
import Mathlib.Topology.UniformSpace.HeineCantor
import Mathlib.Topology.Order.Compact
import Mathlib.Analysis.Complex.Basic
import Verif.Props.Sorting

/-!
# C160: with small enough steps `sort_eigenmodes` follows the modes
-/

set_option linter.unusedSimpArgs false

namespace BP

namespace Spec
end Spec
open Spec Set

/-- A row of eigenvalues `L 0, L 1, …` and eigenvectors `W 0, W 1, …`, in any order (the same for both). -/
def Spec.Shuffled {V : Type} {m : ℕ} (L : Fin m → ℂ) (W : Fin m → V) (r : EigRow V) : Prop :=
  ∃ σ : Equiv.Perm (Fin m), r.evals = List.ofFn (fun j => L (σ j)) ∧ r.evecs = List.ofFn (fun j => W (σ j))

/-- Each mode moves to its own next value by less than the distance to the next values of the others. -/
def Spec.SmallStep {m : ℕ} (L L' : Fin m → ℂ) : Prop := ∀ j k, k ≠ j → dist (L j) (L' j) < dist (L j) (L' k)

theorem argmin_branch {m : ℕ} {L L' : Fin m → ℂ} (h : SmallStep L L') (σ : Equiv.Perm (Fin m)) (j : Fin m) :
    argmin ((List.ofFn fun i => L' (σ i)).map (eigDist (L j))) = (σ.symm j : Fin m) := by
  set l := (List.ofFn fun i => L' (σ i)).map (eigDist (L j)) with hl
  have hlen : l.length = m := by simp [hl]
  have hne : l ≠ [] := by
    intro hc
    rw [hc] at hlen
    exact absurd j.2 (by simp only [List.length_nil] at hlen; omega)
  have hlt := argmin_lt l hne
  rw [hlen] at hlt
  have get : ∀ i : Fin m, l.getD i 0 = dist (L j) (L' (σ i)) := fun i => by
    rw [hl, List.map_ofFn]
    simp [List.getD, eigDist_eq_dist]
  have hle := argmin_le l (σ.symm j : Fin m) (by rw [hlen]; exact (σ.symm j).2)
  by_contra hc
  have h1 := get ⟨argmin l, hlt⟩
  have h2 := get (σ.symm j)
  simp only at h1
  rw [h1, h2, Equiv.apply_symm_apply] at hle
  refine absurd (h j (σ ⟨argmin l, hlt⟩) fun he => hc ?_) (not_lt.2 hle)
  have := congrArg σ.symm he
  rw [Equiv.symm_apply_apply] at this
  rw [← this]

theorem sweep_branch {V : Type} [Inhabited V] {m : ℕ} {L L' : Fin m → ℂ} (h : SmallStep L L') (W : Fin m → V) (r : EigRow V)
    (hr : Shuffled L' W r) : takeRow r (matchRow r.evals (List.ofFn L) []) = ⟨List.ofFn L', List.ofFn W⟩ := by
  obtain ⟨σ, he, hv⟩ := hr
  have hd : (List.ofFn L).map (fun e => argmin (r.evals.map (eigDist e))) = List.ofFn fun j => ((σ.symm j : Fin m) : ℕ) := by
    rw [List.map_ofFn]
    congr 1
    funext j
    rw [he]
    exact argmin_branch h σ j
  have hm := matchRow_of_distinct r.evals (List.ofFn L) [] (by
    rw [List.nil_append, hd, List.nodup_ofFn]
    intro a b hab
    exact σ.symm.injective (Fin.ext hab))
  rw [hm, hd, takeRow, List.map_ofFn, List.map_ofFn, he, hv]
  congr 1
  · congr 1
    funext j
    simp [List.getD]
  · congr 1
    funext j
    simp [List.getD]

theorem sort_branch {V : Type} [Inhabited V] {m : ℕ} (L : ℝ → Fin m → ℂ) (W : ℝ → Fin m → V) :
    ∀ (speeds : List ℝ) (rows : List (EigRow V)) (s : ℝ), List.IsChain (fun s t => SmallStep (L s) (L t)) (s :: speeds) →
      List.Forall₂ (fun s r => Shuffled (L s) (W s) r) speeds rows →
      sortFrom ⟨List.ofFn (L s), List.ofFn (W s)⟩ rows = speeds.map fun s => ⟨List.ofFn (L s), List.ofFn (W s)⟩
  | [], rows, s, _, h => by
    cases h; rfl
  | t :: speeds, rows, s, hc, h => by
    cases h with
    | cons h1 h2 =>
      rw [List.isChain_cons_cons] at hc
      simp only [sortFrom, sweep_branch hc.1 (W t) _ h1, List.map_cons]
      rw [sort_branch L W speeds _ t hc.2 h2]

/-- **C160.** Let the eigenvalues at the speed `s` be `L s 0, L s 1, …`, with eigenvectors `W s 0, …`, given in any order at each
speed. If between consecutive speeds each eigenvalue moves by less than its distance to the next values of the others, then each
column of the result follows one `L · j` through all speeds, and the eigenvectors do too. -/
theorem C160_follows_the_modes {V : Type} [Inhabited V] {m : ℕ} (L : ℝ → Fin m → ℂ) (W : ℝ → Fin m → V) (speeds : List ℝ)
    (rows : List (EigRow V)) (hr : List.Forall₂ (fun s r => Shuffled (L s) (W s) r) speeds rows)
    (hc : List.IsChain (fun s t => SmallStep (L s) (L t)) speeds) :
    ∃ σ : Equiv.Perm (Fin m), sortEigenmodes rows =
      speeds.map fun s => ⟨List.ofFn fun j => L s (σ j), List.ofFn fun j => W s (σ j)⟩ := by
  cases hr with
  | nil => exact ⟨Equiv.refl _, rfl⟩
  | @cons s r speeds rows h1 h2 =>
    obtain ⟨σ, he, hv⟩ := h1
    refine ⟨σ, ?_⟩
    have hr : r = ⟨List.ofFn fun j => L s (σ j), List.ofFn fun j => W s (σ j)⟩ := by
      cases r; simp only at he hv; rw [he, hv]
    rw [hr, sortEigenmodes, List.map_cons]
    congr 1
    refine sort_branch (fun s j => L s (σ j)) (fun s j => W s (σ j)) speeds rows s (hc.imp fun a b h j k hk => ?_) ?_
    · exact h _ _ fun e => hk (σ.injective e)
    · refine h2.imp fun t r ⟨τ, e1, e2⟩ => ⟨τ.trans σ.symm, ?_, ?_⟩
      · simpa using e1
      · simpa using e2

theorem fine_pair {a b : ℝ} (f g : ℝ → ℂ) (hf : ContinuousOn f (Icc a b)) (hg : ContinuousOn g (Icc a b))
    (hne : ∀ s ∈ Icc a b, f s ≠ g s) :
    ∃ δ > 0, ∀ s ∈ Icc a b, ∀ t ∈ Icc a b, |t - s| < δ → dist (f s) (f t) < dist (f s) (g t) := by
  rcases (Icc a b).eq_empty_or_nonempty with he | hn
  · exact ⟨1, one_pos, fun s hs => by rw [he] at hs; exact hs.elim⟩
  obtain ⟨x, hx, hmin⟩ := isCompact_Icc.exists_isMinOn hn (f := fun s => dist (f s) (g s)) (continuous_dist.comp_continuousOn (hf.prodMk hg))
  have hγ : 0 < dist (f x) (g x) := dist_pos.2 (hne x hx)
  obtain ⟨δ, hδ, hu⟩ := Metric.uniformContinuousOn_iff.1 (isCompact_Icc.uniformContinuousOn_of_continuous hf)
    (dist (f x) (g x) / 2) (half_pos hγ)
  refine ⟨δ, hδ, fun s hs t ht hst => ?_⟩
  have h1 := hu s hs t ht (by rw [Real.dist_eq, abs_sub_comm]; exact hst)
  have h2 : dist (f x) (g x) ≤ dist (f t) (g t) := hmin ht
  have h3 := dist_triangle (f t) (f s) (g t)
  rw [dist_comm (f t) (f s)] at h3
  linarith

/-- **C160.** For any modes that depend continuously on the speed and do not meet between `a` and `b` there is a step so small that
for all speeds between `a` and `b` in smaller steps (up or down, however many) `sort_eigenmodes` follows the modes, whatever the
order in which they are given at each speed. -/
theorem C160_small_steps {V : Type} [Inhabited V] {m : ℕ} (L : ℝ → Fin m → ℂ) (W : ℝ → Fin m → V) (a b : ℝ)
    (hL : ∀ j, ContinuousOn (fun s => L s j) (Icc a b)) (hne : ∀ s ∈ Icc a b, ∀ j k, j ≠ k → L s j ≠ L s k) :
    ∃ δ > 0, ∀ (speeds : List ℝ) (rows : List (EigRow V)), (∀ s ∈ speeds, s ∈ Icc a b) →
      List.IsChain (fun s t => |t - s| < δ) speeds → List.Forall₂ (fun s r => Shuffled (L s) (W s) r) speeds rows →
      ∃ σ : Equiv.Perm (Fin m), sortEigenmodes rows =
        speeds.map fun s => ⟨List.ofFn fun j => L s (σ j), List.ofFn fun j => W s (σ j)⟩ := by
  have pair : ∀ p : Fin m × Fin m, ∃ δ > 0, p.2 ≠ p.1 → ∀ s ∈ Icc a b, ∀ t ∈ Icc a b, |t - s| < δ →
      dist (L s p.1) (L t p.1) < dist (L s p.1) (L t p.2) := fun p => by
    by_cases hp : p.2 ≠ p.1
    · obtain ⟨δ, hδ, h⟩ := fine_pair _ _ (hL p.1) (hL p.2) fun s hs => hne s hs _ _ hp.symm
      exact ⟨δ, hδ, fun _ => h⟩
    · exact ⟨1, one_pos, fun h => absurd h hp⟩
  choose d hd hP using pair
  obtain ⟨δ, hδ, hle⟩ : ∃ δ > 0, ∀ p, δ ≤ d p := by
    rcases isEmpty_or_nonempty (Fin m × Fin m) with he | hn
    · exact ⟨1, one_pos, fun p => he.elim p⟩
    · obtain ⟨q, hq⟩ := Finite.exists_min d
      exact ⟨d q, hd q, hq⟩
  refine ⟨δ, hδ, fun speeds rows hs hc hr => C160_follows_the_modes L W speeds rows hr ?_⟩
  have key : ∀ l : List ℝ, (∀ s ∈ l, s ∈ Icc a b) → List.IsChain (fun s t => |t - s| < δ) l →
      List.IsChain (fun s t => SmallStep (L s) (L t)) l := by
    intro l
    induction l with
    | nil => intro _ _; exact List.isChain_nil
    | cons s l ih =>
      intro hs hc
      cases l with
      | nil => exact List.isChain_singleton _
      | cons t l =>
        rw [List.isChain_cons_cons] at hc ⊢
        refine ⟨fun j k hk => ?_, ih (fun x hx => hs x (List.mem_cons_of_mem _ hx)) hc.2⟩
        exact hP (j, k) hk s (hs s (by simp)) t (hs t (by simp)) (hc.1.trans_le (hle (j, k)))
  exact key speeds hs hc

/-- **C160.** The same for `sort_modes`: caster, capsize and the two parts of weave each follow one mode. -/
theorem C160_sort_modes {V : Type} [Inhabited V] (L : ℝ → Fin 4 → ℂ) (W : ℝ → Fin 4 → V) (a b : ℝ)
    (hL : ∀ j, ContinuousOn (fun s => L s j) (Icc a b)) (hne : ∀ s ∈ Icc a b, ∀ j k, j ≠ k → L s j ≠ L s k) :
    ∃ δ > 0, ∀ (speeds : List ℝ) (rows : List (EigRow V)), (∀ s ∈ speeds, s ∈ Icc a b) →
      List.IsChain (fun s t => |t - s| < δ) speeds → List.Forall₂ (fun s r => Shuffled (L s) (W s) r) speeds rows →
      ∃ σ : Equiv.Perm (Fin 4), sortModes rows =
        (speeds.map fun s => ([L s (σ 2), L s (σ 3)], [W s (σ 2), W s (σ 3)]),
         speeds.map fun s => (L s (σ 1), W s (σ 1)), speeds.map fun s => (L s (σ 0), W s (σ 0))) := by
  obtain ⟨δ, hδ, h⟩ := C160_small_steps L W a b hL hne
  refine ⟨δ, hδ, fun speeds rows hs hc hr => ?_⟩
  obtain ⟨σ, hσ⟩ := h speeds rows hs hc hr
  refine ⟨σ, ?_⟩
  rw [sortModes, hσ]
  simp only [List.map_map, Function.comp_def, List.ofFn_succ, List.ofFn_zero]
  rfl

/-- non-vacuity of C160: any number of modes that move with the speed, one apart from each other -/
theorem example_small_steps (m : ℕ) : ∃ L : ℝ → Fin m → ℂ, (∀ j, ContinuousOn (fun s => L s j) (Icc 0 10)) ∧
    ∀ s ∈ Icc (0 : ℝ) 10, ∀ j k, j ≠ k → L s j ≠ L s k := by
  refine ⟨fun s j => ((s + (j : ℕ) : ℝ) : ℂ), fun j => ?_, fun s _ j k hjk he => hjk ?_⟩
  · exact (Complex.continuous_ofReal.comp (continuous_id.add continuous_const)).continuousOn
  · have := Complex.ofReal_injective he
    exact Fin.ext (by exact_mod_cast add_left_cancel this)

/-- non-vacuity of C160: two modes, exchanged at the second speed, are put back -/
theorem example_follows : sortEigenmodes [(⟨[((0 : ℝ) : ℂ), ((1 : ℝ) : ℂ)], ["a", "b"]⟩ : EigRow String),
      ⟨[((1.25 : ℝ) : ℂ), ((0.25 : ℝ) : ℂ)], ["b", "a"]⟩] =
    [⟨[((0 : ℝ) : ℂ), ((1 : ℝ) : ℂ)], ["a", "b"]⟩, ⟨[((0.25 : ℝ) : ℂ), ((1.25 : ℝ) : ℂ)], ["a", "b"]⟩] := by
  have hc : SmallStep (fun j : Fin 2 => ((![0, 1] j : ℝ) : ℂ)) (fun j : Fin 2 => ((![0.25, 1.25] j : ℝ) : ℂ)) := by
    intro j k hk
    simp only [Complex.dist_eq, ← Complex.ofReal_sub, Complex.norm_real, Real.norm_eq_abs]
    fin_cases j <;> fin_cases k <;> first | exact absurd rfl hk | (simp; norm_num [abs_of_pos, abs_of_neg])
  have h := sweep_branch hc !["a", "b"] ⟨[((1.25 : ℝ) : ℂ), ((0.25 : ℝ) : ℂ)], ["b", "a"]⟩
    ⟨Equiv.swap 0 1, by simp, by simp⟩
  simp only [List.ofFn_succ, List.ofFn_zero] at h
  rw [sortEigenmodes, sortFrom, sortFrom]
  exact congrArg (fun r => [_, r]) h

end BP
