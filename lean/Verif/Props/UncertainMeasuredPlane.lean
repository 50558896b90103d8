import Verif.Props.UncertainMeasuredLines

/-!
# First-order propagation: centres of mass and in-plane inertias
-/

set_option linter.unusedSimpArgs false

namespace BP

open Matrix Spec

variable {ι : Type} [DecidableEq ι]

/-- The two quantities of a line that center_of_mass looks at. -/
def slopeOf {R : Type} (t : R × R × R) : R × R := (t.1, t.2.1)

theorem getD_slopeOf {R : Type} (l : List (R × R × R)) (n : ℕ) (o : R) :
    (l.map slopeOf).getD n (o, o) = slopeOf (l.getD n (o, o, o)) := by
  rw [List.getD_eq_getElem?_getD, List.getD_eq_getElem?_getD, List.getElem?_map]
  cases l[n]? <;> rfl

theorem getD_tracks {Ls : List (Q3 ι)} {ls : List (UNum ι × UNum ι × UNum ι)}
    (h : List.Forall₂ TracksLine Ls ls) (n : ℕ) (z : ι → ℝ) :
    ∃ F, TracksT F (ls.getD n (PyNum.lit 0, PyNum.lit 0, PyNum.lit 0)) ∧
      F = Ls.getD n ((fun _ => 0), (fun _ => 0), (fun _ => 0)) ∧
      (Ls.map fun F => evalT F z).getD n (PyNum.lit 0, PyNum.lit 0, PyNum.lit 0) = evalT F z := by
  induction h generalizing n with
  | nil => exact ⟨((fun _ => 0), (fun _ => 0), (fun _ => 0)), ⟨Tracks.lit 0, Tracks.lit 0, Tracks.lit 0⟩, rfl, rfl⟩
  | cons h hs ih =>
    cases n with
    | zero => exact ⟨_, h.1, by simp, by simp⟩
    | succ n => simpa using ih n

open Classical in
/-- `centerOfMassN` by the rows of `indexPairs`. -/
theorem centerOfMass_rows {R : Type} [PyNumT R] (l : List (R × R × R)) {comb : List (List ℕ)}
    (hc : indexPairs l.length = .ok comb) :
    centerOfMassN (l.map slopeOf) =
      (let q := fun n => l.getD n ((PyNum.lit 0 : R), (PyNum.lit 0 : R), (PyNum.lit 0 : R))
      let X := fun row : List ℕ => lineIntersectionN (slopeOf (q (row.getD 0 0))) (slopeOf (q (row.getD 1 0)))
      if ∃ row ∈ comb, PyNumT.val (q (row.getD 0 0)).1 = PyNumT.val (q (row.getD 1 0)).1 then .error .linAlgError
      else if comb.length = 0 then .error .zeroDivision
      else .ok (sumN (comb.map fun row => (X row).1) / PyNum.lit comb.length,
        sumN (comb.map fun row => (X row).2) / PyNum.lit comb.length)) := by
  unfold centerOfMassN
  rw [List.length_map, hc]
  simp only [getD_slopeOf, List.length_map, List.map_map, Function.comp_def, List.mem_map,
    exists_exists_and_eq_and]
  rfl

theorem indexPairs_ok (n : ℕ) : ∃ comb, indexPairs n = .ok comb ∧
    ∀ i < n, ∀ j < n, i ≠ j → [i, j] ∈ comb := by
  unfold indexPairs
  rw [cartesian_range]
  refine ⟨_, rfl, fun i hi j hj hij => ?_⟩
  simp only [List.mem_filter, List.mem_flatMap, List.mem_range, List.mem_map]
  exact ⟨⟨i, hi, j, hj, rfl⟩, by simpa using hij⟩

theorem centerOfMass_tracks {Ls : List (Q3 ι)} {ls : List (UNum ι × UNum ι × UNum ι)}
    (hL : List.Forall₂ TracksLine Ls ls) {x y : UNum ι}
    (h : centerOfMassN (ls.map slopeOf) = .ok (x, y)) :
    ∃ fx fy, Tracks fx x ∧ Tracks fy y ∧ Near fun z =>
      centerOfMassN ((Ls.map fun F => evalT F z).map slopeOf) = .ok (fx z, fy z) := by
  obtain ⟨comb, hc, hmem⟩ := indexPairs_ok ls.length
  rw [centerOfMass_rows ls hc] at h
  dsimp only at h
  split_ifs at h with hp h0
  simp only [Except.ok.injEq, Prod.mk.injEq] at h
  obtain ⟨rfl, rfl⟩ := h
  push Not at hp
  have hne : ∀ row ∈ comb, (ls.getD (row.getD 0 0) ((PyNum.lit 0 : UNum ι), (PyNum.lit 0 : UNum ι), PyNum.lit 0)).1.nom ≠
      (ls.getD (row.getD 1 0) ((PyNum.lit 0 : UNum ι), (PyNum.lit 0 : UNum ι), PyNum.lit 0)).1.nom := hp
  have hlen : ∀ z, (Ls.map fun F => evalT F z).length = ls.length := fun z => by
    rw [List.length_map, hL.length_eq]
  have hT : ∀ n, TracksT (Ls.getD n ((fun _ => 0), (fun _ => 0), (fun _ => 0)))
      (ls.getD n (PyNum.lit 0, PyNum.lit 0, PyNum.lit 0)) := fun n => by
    obtain ⟨F, hF, rfl, -⟩ := getD_tracks hL n 0
    exact hF
  have hev : ∀ z n, (Ls.map fun F => evalT F z).getD n (PyNum.lit 0, PyNum.lit 0, PyNum.lit 0) =
      evalT (Ls.getD n ((fun _ => 0), (fun _ => 0), (fun _ => 0))) z := fun z n => by
    obtain ⟨F, -, rfl, he⟩ := getD_tracks hL n z
    exact he
  have hX := fun row (hr : row ∈ comb) => intersection_tracks (hT (row.getD 0 0)) (hT (row.getD 1 0)) (hne row hr)
  have hl : (PyNum.lit comb.length : UNum ι).nom ≠ 0 := by
    show (comb.length : ℝ) ≠ 0
    exact_mod_cast h0
  have sx := (sumN_tracks fun row hr => (hX row hr).1).div (Tracks.lit comb.length) hl
  have sy := (sumN_tracks fun row hr => (hX row hr).2).div (Tracks.lit comb.length) hl
  refine ⟨_, _, sx, sy, ?_⟩
  refine Near.mono (Near.all comb fun row hr => Near.ne (hT (row.getD 0 0)).m (hT (row.getD 1 0)).m (hne row hr))
    fun z hz => ?_
  rw [centerOfMass_rows (Ls.map fun F => evalT F z) (comb := comb) (by rw [hlen, hc])]
  dsimp only
  simp only [hev]
  rw [if_neg, if_neg h0]
  · rfl
  · rintro ⟨row, hr, he⟩
    exact hz row hr he

theorem centerOfMass_distinct {ls : List (UNum ι × UNum ι × UNum ι)} {xy : UNum ι × UNum ι}
    (h : centerOfMassN (ls.map slopeOf) = .ok xy) :
    ∀ i j (hi : i < ls.length) (hj : j < ls.length), i ≠ j → (ls[i]).1.nom ≠ (ls[j]).1.nom := by
  obtain ⟨comb, hc, hmem⟩ := indexPairs_ok ls.length
  rw [centerOfMass_rows ls hc] at h
  dsimp only at h
  split_ifs at h with hp h0
  push Not at hp
  intro i j hi hj hij
  have := hp [i, j] (hmem i hi j hj hij)
  simp only [List.getD_eq_getElem?_getD, List.getElem?_cons_zero, List.getElem?_cons_succ, Option.getD_some,
    List.getElem?_eq_getElem hi, List.getElem?_eq_getElem hj] at this
  exact this

theorem foldlM_ok_mem {α σ : Type} {f : σ → α → Except PyErr σ} {l : List α} :
    ∀ {s out : σ}, l.foldlM f s = .ok out → ∀ a ∈ l, ∃ s1 s2, f s1 a = .ok s2 := by
  induction l with
  | nil => intro s out _ a ha; simp at ha
  | cons b l ih =>
    intro s out h a ha
    rw [List.foldlM_cons] at h
    cases hb : f s b with
    | error e => rw [hb] at h; cases h
    | ok s1 =>
      rw [hb] at h
      rcases List.mem_cons.1 ha with rfl | ha
      · exact ⟨s, s1, hb⟩
      · exact ih h a ha

theorem setCentres_tracks {L : Dict (List (Q3 ι))} {lines : Dict (List (UNum ι × UNum ι × UNum ι))}
    (hL : TracksL L lines) {D : Dict ((ι → ℝ) → ℝ)} {par out : Dict (UNum ι)} (hD : TracksD D par)
    (h : setCentresN lines par = .ok out) :
    StepTracks (fun z => setCentresN (evalL L z) (evalD D z)) out ∧
    ∀ pl ∈ lines, ∀ i j (hi : i < pl.2.length) (hj : j < pl.2.length), i ≠ j → (pl.2[i]).1.nom ≠ (pl.2[j]).1.nom := by
  unfold setCentresN at h ⊢
  have key : ∀ (X : String × List (Q3 ι)) (x : String × List (UNum ι × UNum ι × UNum ι))
      (S : Dict ((ι → ℝ) → ℝ)) (s s' : Dict (UNum ι)), (X.1 = x.1 ∧ List.Forall₂ TracksLine X.2 x.2) →
      TracksD S s → centreStepN s x = .ok s' →
      ∃ S', TracksD S' s' ∧ Near fun z =>
        centreStepN (evalD S z) (X.1, X.2.map fun F => evalT F z) = .ok (evalD S' z) := by
    rintro ⟨p, F⟩ ⟨q, l⟩ S s s' ⟨rfl, hT⟩ hS hx
    unfold centreStepN at hx ⊢
    dsimp only at hx hT ⊢
    cases hcm : centerOfMassN (l.map slopeOf) with
    | error e =>
      have hcm' : centerOfMassN (l.map fun t => (t.1, t.2.1)) = .error e := hcm
      rw [hcm'] at hx; cases hx
    | ok xy =>
      obtain ⟨x, y⟩ := xy
      have hcm' : centerOfMassN (l.map fun t => (t.1, t.2.1)) = .ok (x, y) := hcm
      rw [hcm'] at hx
      simp only [Except.ok.injEq] at hx
      subst hx
      obtain ⟨fx, fy, hfx, hfy, hn⟩ := centerOfMass_tracks hT hcm
      refine ⟨_, (hS.set ("x" ++ p) hfx).set ("z" ++ p) hfy, Near.mono hn fun z hz => ?_⟩
      have hz' : centerOfMassN ((F.map fun F => evalT F z).map fun t => (t.1, t.2.1)) = .ok (fx z, fy z) := hz
      rw [hz']
      simp only [evalD_set]
  constructor
  · obtain ⟨D', hD', hn⟩ := foldlM_tracks (evA := fun (X : String × List (Q3 ι)) z => (X.1, X.2.map fun F => evalT F z))
      (Rel := TracksD) (ev := evalD) (g := fun _ => centreStepN)
      (fun X x S s s' hX hS hx => key X x S s s' hX hS hx) hL hD h
    exact ⟨D', hD', hn⟩
  · intro pl hpl
    obtain ⟨s, s', hs⟩ := foldlM_ok_mem h pl hpl
    unfold centreStepN at hs
    cases hcm : centerOfMassN (pl.2.map slopeOf) with
    | error e =>
      have hcm' : centerOfMassN (pl.2.map fun t => (t.1, t.2.1)) = .error e := hcm
      rw [hcm'] at hs; cases hs
    | ok xy => exact centerOfMass_distinct hcm

/-! ## In-plane inertias -/

/-- The pseudo-inverse with uncertainties represents the pseudo-inverse to first order at matrices
of full column rank. -/
def Spec.PropagatesInv (matInv : MatInv ℝ) (matInvU : MatInv (UNum ι)) : Prop :=
  ∀ n (F : (ι → ℝ) → Matrix (Fin n) (Fin 3) ℝ) (A : Matrix (Fin n) (Fin 3) (UNum ι)),
    (∀ i j, Tracks (fun z => F z i j) (A i j)) → (∀ x : Fin 3 → ℝ, nominalValues A *ᵥ x = 0 → x = 0) →
    ∀ k i, Tracks (fun z => matInv n (F z) k i) (matInvU n A k i)

theorem components_cast (matInv : MatInv ℝ) {n m : ℕ} (h : n = m) (jay : ℕ → ℝ) (b : Fin n → ℝ) (b' : Fin m → ℝ)
    (hb : ∀ i (hi : i < n), b ⟨i, hi⟩ = b' ⟨i, h ▸ hi⟩) :
    inertiaComponentsN matInv (fun i : Fin n => jay i) b = inertiaComponentsN matInv (fun i : Fin m => jay i) b' := by
  subst h
  have : b = b' := funext fun i => hb i.1 i.2
  rw [this]

theorem betaMat_nom {n : ℕ} (b : Fin n → UNum ι) : nominalValues (betaMatN b) = betaMat fun i => (b i).nom := by
  funext i c
  fin_cases c <;> rfl

theorem fullRank {ls : List (UNum ι × UNum ι × UNum ι)}
    (hcos : ∀ i (hi : i < ls.length), (ls[i]).1.nom = -Real.tan (ls[i]).2.2.nom ∧ Real.cos (ls[i]).2.2.nom ≠ 0)
    (hd : ∀ i j (hi : i < ls.length) (hj : j < ls.length), i ≠ j → (ls[i]).1.nom ≠ (ls[j]).1.nom)
    (h3 : 3 ≤ ls.length) (x : Fin 3 → ℝ)
    (hx : nominalValues (betaMatN fun i : Fin ls.length => (ls[i]).2.2) *ᵥ x = 0) : x = 0 := by
  rw [betaMat_nom] at hx
  have key : ∀ i j (hi : i < ls.length) (hj : j < ls.length), i ≠ j →
      Real.sin ((ls[i]).2.2.nom - (ls[j]).2.2.nom) ≠ 0 := by
    intro i j hi hj hij h0
    apply hd i j hi hj hij
    rw [(hcos i hi).1, (hcos j hj).1]
    have h1 := (hcos i hi).2
    have h2 := (hcos j hj).2
    rw [Real.sin_sub] at h0
    rw [Real.tan_eq_sin_div_cos, Real.tan_eq_sin_div_cos, neg_inj, div_eq_div_iff h1 h2]
    linarith
  exact betaMat_injective (fun i : Fin ls.length => (ls[i]).2.2.nom) ⟨0, by omega⟩ ⟨1, by omega⟩ ⟨2, by omega⟩
    (key 0 1 _ _ (by norm_num)) (key 0 2 _ _ (by norm_num)) (key 1 2 _ _ (by norm_num)) x hx

theorem setInPlane_tracks {matInv : MatInv ℝ} {matInvU : MatInv (UNum ι)} (hI : PropagatesInv matInv matInvU)
    {M : Dict ((ι → ℝ) → ℝ)} {mp : Dict (UNum ι)} (hM : TracksD M mp) {fk : (ι → ℝ) → ℝ} {k : UNum ι}
    (hk : Tracks fk k) {L : Dict (List (Q3 ι))} {lines : Dict (List (UNum ι × UNum ι × UNum ι))}
    (hL : TracksL L lines) {D : Dict ((ι → ℝ) → ℝ)} {par out : Dict (UNum ι)} (hD : TracksD D par)
    (hd : ∀ pl ∈ lines, ∀ i j (hi : i < pl.2.length) (hj : j < pl.2.length), i ≠ j →
      (pl.2[i]).1.nom ≠ (pl.2[j]).1.nom)
    (h3 : ∀ pl ∈ lines, 3 ≤ pl.2.length) (h : setInPlaneN matInvU mp k lines par = .ok out) :
    StepTracks (fun z => setInPlaneN matInv (evalD M z) (fk z) (evalL L z) (evalD D z)) out := by
  unfold setInPlaneN at h ⊢
  have hL' : List.Forall₂ (fun (a : String × List (Q3 ι)) b => (a.1 = b.1 ∧ List.Forall₂ TracksLine a.2 b.2) ∧
      b ∈ lines) L lines := by
    have : ∀ (L : Dict (List (Q3 ι))) (l : Dict (List (UNum ι × UNum ι × UNum ι))), TracksL L l →
        (∀ b ∈ l, b ∈ lines) → List.Forall₂ (fun (a : String × List (Q3 ι)) b =>
          (a.1 = b.1 ∧ List.Forall₂ TracksLine a.2 b.2) ∧ b ∈ lines) L l := by
      intro L l hL
      induction hL with
      | nil => exact fun _ => List.Forall₂.nil
      | cons h _ ih => exact fun hm => List.Forall₂.cons ⟨h, hm _ (by simp)⟩ (ih fun b hb => hm b (by simp [hb]))
    exact this L lines hL fun b hb => hb
  obtain ⟨D', hD', hn⟩ := foldlM_tracks (evA := fun (X : String × List (Q3 ι)) z => (X.1, X.2.map fun F => evalT F z))
    (Rel := TracksD) (ev := evalD) (g := fun z => inPlaneStepN matInv (evalD M z) (fk z))
    (fun X x S s s' hX hS hx => by
      obtain ⟨p, F⟩ := X
      obtain ⟨q, l⟩ := x
      obtain ⟨⟨rfl, hT⟩, hmem⟩ := hX
      dsimp only at hT
      unfold inPlaneStepN at hx ⊢
      dsimp only at hx ⊢
      simp only [hM.require, List.length_map, hT.length_eq]
      cases hr : mp.require ((List.range l.length).map (ttKey p)) with
      | error e => rw [hr] at hx; cases hx
      | ok _ =>
        rw [hr] at hx
        simp only [Except.ok.injEq] at hx
        subst hx
        have hFl : F.length = l.length := hT.length_eq
        have hget : ∀ i (hi : i < l.length), TracksLine (F[i]'(lt_of_lt_of_eq hi hFl.symm)) l[i] := fun i hi =>
          (List.forall₂_iff_get.1 hT).2 i (lt_of_lt_of_eq hi hFl.symm) hi
        have hB := hI l.length (fun z => betaMatN fun i : Fin l.length => (F[(i : ℕ)]'(lt_of_lt_of_eq i.2 hFl.symm)).2.2 z)
          (betaMatN fun i : Fin l.length => (l[i]).2.2) (fun i c => by
            have hb := (hget i.1 i.2).1.beta
            fin_cases c
            · exact hb.cos.pow 2
            · exact ((Tracks.lit (-2)).mul hb.sin).mul hb.cos
            · exact hb.sin.pow 2)
          (fullRank (fun i hi => (hget i hi).2) (hd _ hmem) (h3 _ hmem))
        have hc : ∀ c : Fin 3, Tracks (fun z => inertiaComponentsN matInv
            (fun i : Fin l.length => torInertiaN (fk z) ((evalD M z).getD (ttKey p i) (PyNum.lit 0)))
            (fun i => (F[(i : ℕ)]'(lt_of_lt_of_eq i.2 hFl.symm)).2.2 z) c)
            (inertiaComponentsN matInvU (fun i : Fin l.length => torInertiaN k (mp.getD (ttKey p i) (PyNum.lit 0)))
              (fun i => (l[i]).2.2) c) := by
          intro c
          unfold inertiaComponentsN
          exact sumN_tracks (l := List.finRange l.length) fun i _ =>
            (hB c i).mul (tor_tracks hk (hM.getD (ttKey p i)))
        refine ⟨_, ((hS.set ("I" ++ p ++ "xx") (hc 0)).set ("I" ++ p ++ "xz") (hc 1)).set ("I" ++ p ++ "zz") (hc 2),
          Near.of_forall fun z => ?_⟩
        simp only [evalD_set]
        have hcast := components_cast matInv (n := (F.map fun F => evalT F z).length) (m := l.length)
          (by rw [List.length_map, hFl])
          (fun i => torInertiaN (fk z) ((evalD M z).getD (ttKey p i) (PyNum.lit 0)))
          (fun i => ((F.map fun F => evalT F z)[i]).2.2) (fun i => (F[(i : ℕ)]'(lt_of_lt_of_eq i.2 hFl.symm)).2.2 z)
          (fun i hi => by simp [evalT])
        rw [hcast]) hL' hD h
  exact ⟨D', hD', hn⟩

end BP
