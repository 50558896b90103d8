import Verif.Props.UncertainMeasuredTracks
import Verif.Props.Com
import Verif.Props.Inertia

/-!
# First-order propagation: lengths, lines, centres of mass and in-plane inertias
-/

set_option linter.unusedSimpArgs false

namespace BP

open Matrix Spec

variable {ι : Type} [DecidableEq ι]

/-! ## Lists and folds -/

theorem Near.all {α : Type} {P : α → (ι → ℝ) → Prop} (l : List α) (h : ∀ a ∈ l, Near (P a)) :
    Near fun z => ∀ a ∈ l, P a z := by
  induction l with
  | nil => exact Near.of_forall fun z a ha => absurd ha (by simp)
  | cons x l ih =>
    have h1 := Near.and (h x (by simp)) (ih fun a ha => h a (by simp [ha]))
    exact Near.mono h1 fun z hz a ha => by
      rcases List.mem_cons.1 ha with rfl | ha
      · exact hz.1
      · exact hz.2 a ha

theorem foldlM_tracks {A α β S σ τ : Type} {PA : A → α → Prop} {evA : A → (ι → ℝ) → β}
    {Rel : S → σ → Prop} {ev : S → (ι → ℝ) → τ} {f : σ → α → Except PyErr σ}
    {g : (ι → ℝ) → τ → β → Except PyErr τ}
    (step : ∀ X x S s s', PA X x → Rel S s → f s x = .ok s' →
      ∃ S', Rel S' s' ∧ Near fun z => g z (ev S z) (evA X z) = .ok (ev S' z))
    {L : List A} {l : List α} (hL : List.Forall₂ PA L l) :
    ∀ {S : S} {s out : σ}, Rel S s → l.foldlM f s = .ok out →
      ∃ S', Rel S' out ∧ Near fun z => (L.map fun X => evA X z).foldlM (g z) (ev S z) = .ok (ev S' z) := by
  induction hL with
  | nil =>
    intro S s out hS h
    cases h
    exact ⟨S, hS, Near.of_forall fun z => rfl⟩
  | @cons X x L l hX _ ih =>
    intro S s out hS h
    rw [List.foldlM_cons] at h
    cases hx : f s x with
    | error e => rw [hx] at h; cases h
    | ok s1 =>
      rw [hx] at h
      obtain ⟨S1, hS1, hn1⟩ := step X x S s s1 hX hS hx
      obtain ⟨S2, hS2, hn2⟩ := ih hS1 h
      refine ⟨S2, hS2, Near.mono (Near.and hn1 hn2) fun z hz => ?_⟩
      rw [List.map_cons, List.foldlM_cons, hz.1]
      exact hz.2

theorem sumN_tracks {α : Type} {l : List α} {F : α → (ι → ℝ) → ℝ} {u : α → UNum ι}
    (h : ∀ a ∈ l, Tracks (F a) (u a)) : Tracks (fun z => sumN (l.map fun a => F a z)) (sumN (l.map u)) := by
  induction l with
  | nil => exact Tracks.lit 0
  | cons a l ih =>
    exact (h a (by simp)).add (ih fun b hb => h b (by simp [hb]))

/-! ## Lengths of the handlebar frame -/

theorem splitLengths_tracks {M : Dict ((ι → ℝ) → ℝ)} {mp : Dict (UNum ι)} (hM : TracksD M mp) {s : Bool}
    {l1 l2 : UNum ι} (h : splitLengthsN mp s = .ok (l1, l2)) (v : String → ℝ)
    (hv : v = fun k => (mp.getD k (PyNum.lit 0)).nom)
    (hs : s = true → (v "h7" - v "h6" + v "d5" / 2 - v "d6" / 2) ^ 2 ≠ (v "l" - v "d5" / 2 - v "d6" / 2) ^ 2) :
    ∃ f1 f2, Tracks f1 l1 ∧ Tracks f2 l2 ∧ Near fun z => splitLengthsN (evalD M z) s = .ok (f1 z, f2 z) := by
  unfold splitLengthsN at h ⊢
  cases s
  · simp only [Bool.false_eq_true, if_false, Except.ok.injEq, Prod.mk.injEq] at h ⊢
    obtain ⟨rfl, rfl⟩ := h
    exact ⟨fun _ => 0, fun _ => 0, Tracks.lit 0, Tracks.lit 0, Near.of_forall fun z => ⟨rfl, rfl⟩⟩
  · simp only [if_true] at h ⊢
    simp only [hM.require]
    cases hr : mp.require ["h6", "h7", "d5", "d6", "l"] with
    | error e => rw [hr] at h; cases h
    | ok _ =>
      rw [hr] at h
      dsimp only at h ⊢
      have q := fun k => hM.getD k
      have two : (PyNum.lit 2 : UNum ι).nom ≠ 0 := by show (2 : ℝ) ≠ 0; norm_num
      have r5 := (q "d5").div (Tracks.lit 2) two
      have r6 := (q "d6").div (Tracks.lit 2) two
      have t1 := (((q "h7").sub (q "h6")).add r5).sub r6
      have t0 := ((q "l").sub r5).sub r6
      unfold calculateL1L2N at h ⊢
      dsimp only at h ⊢
      split_ifs at h with h0 hr1
      have h0' : PyNumT.val (mp.getD "l" (PyNum.lit 0) - mp.getD "d5" (PyNum.lit 0) / PyNum.lit 2 -
        mp.getD "d6" (PyNum.lit 0) / PyNum.lit 2) ≠ 0 := h0
      have tr := t1.div t0 h0'
      push Not at hr1
      have hsq := hs rfl
      rw [hv] at hsq
      have hne : ∀ c : ℝ, c ^ 2 = 1 → ((mp.getD "h7" (PyNum.lit 0) - mp.getD "h6" (PyNum.lit 0) +
          mp.getD "d5" (PyNum.lit 0) / PyNum.lit 2 - mp.getD "d6" (PyNum.lit 0) / PyNum.lit 2) /
          (mp.getD "l" (PyNum.lit 0) - mp.getD "d5" (PyNum.lit 0) / PyNum.lit 2 -
          mp.getD "d6" (PyNum.lit 0) / PyNum.lit 2)).nom ≠ c := by
        intro c hc he
        apply hsq
        have he' : ((mp.getD "h7" (PyNum.lit 0)).nom - (mp.getD "h6" (PyNum.lit 0)).nom +
          (mp.getD "d5" (PyNum.lit 0)).nom / 2 - (mp.getD "d6" (PyNum.lit 0)).nom / 2) /
          ((mp.getD "l" (PyNum.lit 0)).nom - (mp.getD "d5" (PyNum.lit 0)).nom / 2 -
          (mp.getD "d6" (PyNum.lit 0)).nom / 2) = c := he
        have he2 := (div_eq_iff h0').1 he'
        dsimp only
        rw [he2, mul_pow, hc, one_mul]
        rfl
      have ta := Tracks.asin tr (hne (-1) (by norm_num)) (hne 1 (by norm_num))
      simp only [Except.ok.injEq, Prod.mk.injEq] at h
      obtain ⟨rfl, rfl⟩ := h
      refine ⟨_, _, t1, t0.mul ta.cos, ?_⟩
      have n0 := Near.ne_zero t0 h0'
      have nl := Near.const_lt tr (lt_of_le_of_ne hr1.1 (Ne.symm (hne (-1) (by norm_num))))
      have nu := Near.lt_const tr (lt_of_le_of_ne hr1.2 (hne 1 (by norm_num)))
      refine Near.mono (Near.and n0 (Near.and nl nu)) fun z hz => ?_
      refine (if_neg hz.1).trans ((if_neg ?_).trans rfl)
      exact not_or.2 ⟨not_lt.2 hz.2.1.le, not_lt.2 hz.2.2.le⟩

theorem fwheel_tracks {fl f1 f2 : (ι → ℝ) → ℝ} {lam l1 l2 u1 u2 : UNum ι} (hl : Tracks fl lam)
    (h1 : Tracks f1 l1) (h2 : Tracks f2 l2) (hc : Real.cos lam.nom ≠ 0)
    (h : fwheelToHandlebarRefN lam l1 l2 = .ok (u1, u2)) :
    ∃ g1 g2, Tracks g1 u1 ∧ Tracks g2 u2 ∧
      Near fun z => fwheelToHandlebarRefN (fl z) (f1 z) (f2 z) = .ok (g1 z, g2 z) := by
  unfold fwheelToHandlebarRefN at h ⊢
  dsimp only at h ⊢
  split_ifs at h with h0
  simp only [Except.ok.injEq, Prod.mk.injEq] at h
  obtain ⟨rfl, rfl⟩ := h
  have t1 := (h2.mul hl.sin).sub (h1.mul hl.cos)
  have hs : (PyNum.sin lam).nom ≠ 0 := h0
  have ht : (PyNumT.tan lam).nom ≠ 0 := by
    show Real.tan lam.nom ≠ 0
    rw [Real.tan_eq_sin_div_cos]
    exact div_ne_zero h0 hc
  refine ⟨_, _, t1, (t1.div (hl.tan hc) ht).add (h1.div hl.sin hs), ?_⟩
  exact Near.mono (Near.ne_zero hl.sin hs) fun z hz => by
    exact (if_neg hz).trans rfl

theorem splitRef_tracks {D : Dict ((ι → ℝ) → ℝ)} {par : Dict (UNum ι)} (hD : TracksD D par) {s : Bool}
    {f1 f2 : (ι → ℝ) → ℝ} {l1 l2 u1 u2 : UNum ι} (h1 : Tracks f1 l1) (h2 : Tracks f2 l2)
    (hc : Real.cos (par.getD "lam" (PyNum.lit 0)).nom ≠ 0) (h : splitRefN par s l1 l2 = .ok (u1, u2)) :
    ∃ g1 g2, Tracks g1 u1 ∧ Tracks g2 u2 ∧
      Near fun z => splitRefN (evalD D z) s (f1 z) (f2 z) = .ok (g1 z, g2 z) := by
  unfold splitRefN at h ⊢
  cases s
  · simp only [Bool.false_eq_true, if_false, Except.ok.injEq, Prod.mk.injEq] at h ⊢
    obtain ⟨rfl, rfl⟩ := h
    exact ⟨fun _ => 0, fun _ => 0, Tracks.lit 0, Tracks.lit 0, Near.of_forall fun z => ⟨rfl, rfl⟩⟩
  · simp only [if_true] at h ⊢
    exact fwheel_tracks (hD.getD "lam") h1 h2 hc h

/-! ## Lines -/

/-- Three quantities. -/
abbrev Q3 (ι : Type) := ((ι → ℝ) → ℝ) × ((ι → ℝ) → ℝ) × ((ι → ℝ) → ℝ)

/-- Three quantities at one deviation. -/
def evalT (F : Q3 ι) (z : ι → ℝ) : ℝ × ℝ × ℝ := (F.1 z, F.2.1 z, F.2.2 z)

/-- Slope, intercept and angle, to first order. -/
structure TracksT (F : Q3 ι) (t : UNum ι × UNum ι × UNum ι) : Prop where
  m : Tracks F.1 t.1
  b : Tracks F.2.1 t.2.1
  beta : Tracks F.2.2 t.2.2

theorem comLine_tracks {fa fd fl fR fF fw f1 f2 : (ι → ℝ) → ℝ} {alpha a lam rR rF w l1 l2 : UNum ι}
    (ha : Tracks fa alpha) (hd : Tracks fd a) (hl : Tracks fl lam) (hR : Tracks fR rR) (hF : Tracks fF rF)
    (hw : Tracks fw w) (h1 : Tracks f1 l1) (h2 : Tracks f2 l2) {part : String} {t : UNum ι × UNum ι × UNum ι}
    (hc : Real.cos lam.nom ≠ 0) (hb : Real.cos (lam.nom - alpha.nom * Real.pi / 180) ≠ 0)
    (h : comLineN alpha a lam rR rF w part l1 l2 = .ok t) :
    (∃ F, TracksT F t ∧ Near fun z =>
      comLineN (fa z) (fd z) (fl z) (fR z) (fF z) (fw z) part (f1 z) (f2 z) = .ok (evalT F z)) ∧
    t.1.nom = -Real.tan t.2.2.nom ∧ Real.cos t.2.2.nom ≠ 0 := by
  have hbeta : Tracks (fun z => fl z - fa z * PyNum.lit Real.pi / PyNum.lit 180)
      (lam - alpha * PyNum.lit Real.pi / PyNum.lit 180) :=
    hl.sub ((ha.mul (Tracks.lit Real.pi)).div (Tracks.lit 180) (by show (180 : ℝ) ≠ 0; norm_num))
  have hb' : Real.cos (lam - alpha * PyNum.lit Real.pi / PyNum.lit 180).nom ≠ 0 := hb
  have ht := hbeta.tan hb'
  have hq := hd.neg.div hbeta.cos hb'
  unfold comLineN at h ⊢
  dsimp only at h ⊢
  by_cases hB : part = "B"
  · rw [if_pos hB] at h
    simp only [Except.ok.injEq] at h
    subst h
    simp only [if_pos hB]
    exact ⟨⟨(_, _, _), ⟨ht.neg, hq.sub hR, hbeta⟩, Near.of_forall fun z => rfl⟩, rfl, hb'⟩
  · rw [if_neg hB] at h
    simp only [if_neg hB]
    by_cases hS : part = "S" ∨ part = "H"
    · rw [if_pos hS] at h
      simp only [Except.ok.injEq] at h
      subst h
      simp only [if_pos hS]
      exact ⟨⟨(_, _, _), ⟨ht.neg, (hq.sub hF).add (hw.mul ht), hbeta⟩, Near.of_forall fun z => rfl⟩, rfl, hb'⟩
    · rw [if_neg hS] at h
      simp only [if_neg hS]
      by_cases hG : part = "G"
      · rw [if_pos hG] at h
        simp only [if_pos hG]
        cases hf : fwheelToHandlebarRefN lam l1 l2 with
        | error e => rw [hf] at h; cases h
        | ok u =>
          obtain ⟨u1, u2⟩ := u
          rw [hf] at h
          simp only [Except.ok.injEq] at h
          subst h
          obtain ⟨g1, g2, hg1, hg2, hn⟩ := fwheel_tracks hl h1 h2 hc hf
          refine ⟨⟨(_, _, _), ⟨ht.neg, (hq.sub (hF.add hg2)).add ((hw.sub hg1).mul ht), hbeta⟩, ?_⟩, rfl, hb'⟩
          exact Near.mono hn fun z hz => by rw [hz]; rfl
      · rw [if_neg hG] at h
        cases h

/-- The lines of every part at one deviation. -/
def evalL (L : Dict (List (Q3 ι))) (z : ι → ℝ) : Dict (List (ℝ × ℝ × ℝ)) :=
  L.map fun e => (e.1, e.2.map fun F => evalT F z)

/-- A line that is not vertical, to first order. -/
def TracksLine (F : Q3 ι) (t : UNum ι × UNum ι × UNum ι) : Prop :=
  TracksT F t ∧ t.1.nom = -Real.tan t.2.2.nom ∧ Real.cos t.2.2.nom ≠ 0

/-- Part by part, to first order. -/
def TracksL (L : Dict (List (Q3 ι))) (l : Dict (List (UNum ι × UNum ι × UNum ι))) : Prop :=
  List.Forall₂ (fun a b => a.1 = b.1 ∧ List.Forall₂ TracksLine a.2 b.2) L l

omit [DecidableEq ι] in
theorem find?_evalL (L : Dict (List (Q3 ι))) (z : ι → ℝ) (k : String) :
    (evalL L z).find? k = (L.find? k).map fun l => l.map fun F => evalT F z :=
  find?_map_key (fun (_ : String) (l : List (Q3 ι)) => l.map fun F => evalT F z) L k

omit [DecidableEq ι] in
theorem evalL_set (L : Dict (List (Q3 ι))) (k : String) (f : List (Q3 ι)) (z : ι → ℝ) :
    evalL (L.set k f) z = (evalL L z).set k (f.map fun F => evalT F z) := by
  induction L with
  | nil => rfl
  | cons e D ih =>
    obtain ⟨k', v⟩ := e
    simp only [evalL, Dict.set, List.map_cons] at ih ⊢
    split
    · simp
    · simp [ih]

namespace TracksL

variable {L : Dict (List (Q3 ι))} {l : Dict (List (UNum ι × UNum ι × UNum ι))}

theorem find (h : TracksL L l) (k : String) :
    (L.find? k = none ∧ l.find? k = none) ∨
      ∃ f u, L.find? k = some f ∧ l.find? k = some u ∧ List.Forall₂ TracksLine f u := by
  induction h with
  | nil => exact Or.inl ⟨rfl, rfl⟩
  | @cons a b D d h _ ih =>
    obtain ⟨k1, f⟩ := a
    obtain ⟨k2, u⟩ := b
    obtain ⟨rfl, hT⟩ := h
    simp only [Dict.find?_cons]
    split
    · exact Or.inr ⟨f, u, rfl, rfl, hT⟩
    · exact ih

theorem set (h : TracksL L l) (k : String) {f : List (Q3 ι)} {u : List (UNum ι × UNum ι × UNum ι)}
    (hf : List.Forall₂ TracksLine f u) : TracksL (L.set k f) (l.set k u) := by
  induction h with
  | nil => exact List.Forall₂.cons ⟨rfl, hf⟩ List.Forall₂.nil
  | @cons a b D d h hs ih =>
    obtain ⟨k1, f1⟩ := a
    obtain ⟨k2, u2⟩ := b
    obtain ⟨rfl, hT⟩ := h
    simp only [Dict.set]
    split
    · exact List.Forall₂.cons ⟨rfl, hf⟩ hs
    · exact List.Forall₂.cons ⟨rfl, hT⟩ ih

end TracksL

theorem comLineStep_tracks {M D : Dict ((ι → ℝ) → ℝ)} {mp par : Dict (UNum ι)} (hM : TracksD M mp)
    (hD : TracksD D par) {f1 f2 : (ι → ℝ) → ℝ} {l1 l2 : UNum ι} (h1 : Tracks f1 l1) (h2 : Tracks f2 l2)
    (hc : Real.cos (par.getD "lam" (PyNum.lit 0)).nom ≠ 0) {key : String}
    (hb : Real.cos ((par.getD "lam" (PyNum.lit 0)).nom -
      (mp.getD key (PyNum.lit 0)).nom * Real.pi / 180) ≠ 0)
    {L : Dict (List (Q3 ι))} {l out : Dict (List (UNum ι × UNum ι × UNum ι))} (hL : TracksL L l)
    (h : comLineStepN par mp l1 l2 l key = .ok out) :
    ∃ L', TracksL L' out ∧ Near fun z =>
      comLineStepN (evalD D z) (evalD M z) (f1 z) (f2 z) (evalL L z) key = .ok (evalL L' z) := by
  unfold comLineStepN at h ⊢
  dsimp only at h ⊢
  simp only [hM.require]
  cases hr : mp.require [key, "a" ++ String.ofList (key.toList.drop 5)] with
  | error e => rw [hr] at h; cases h
  | ok _ =>
    rw [hr] at h
    dsimp only at h ⊢
    cases hk : key.toList[5]? with
    | none => rw [hk] at h; cases h
    | some ch =>
      rw [hk] at h
      dsimp only at h ⊢
      cases ht : comLineN (mp.getD key (PyNum.lit 0)) (mp.getD ("a" ++ String.ofList (key.toList.drop 5)) (PyNum.lit 0))
          (par.getD "lam" (PyNum.lit 0)) (par.getD "rR" (PyNum.lit 0)) (par.getD "rF" (PyNum.lit 0))
          (par.getD "w" (PyNum.lit 0)) (String.ofList [ch]) l1 l2 with
      | error e => rw [ht] at h; cases h
      | ok t =>
        rw [ht] at h
        dsimp only at h
        obtain ⟨⟨F, hF, hn⟩, hm, hcb⟩ := comLine_tracks (hM.getD key) (hM.getD ("a" ++ String.ofList (key.toList.drop 5)))
          (hD.getD "lam") (hD.getD "rR") (hD.getD "rF") (hD.getD "w") h1 h2 hc hb ht
        rcases hL.find (String.ofList [ch]) with ⟨-, hf⟩ | ⟨f, u, hf, hu, hT⟩
        · rw [hf] at h; cases h
        · rw [hu] at h
          simp only [Except.ok.injEq] at h
          subst h
          refine ⟨_, hL.set (String.ofList [ch]) (List.rel_append hT
            (List.Forall₂.cons ⟨hF, hm, hcb⟩ List.Forall₂.nil)), ?_⟩
          refine Near.mono hn fun z hz => ?_
          rw [hz]
          dsimp only
          rw [find?_evalL, hf]
          simp only [Option.map_some, evalL_set, List.map_append, List.map_cons, List.map_nil]

theorem partComLines_tracks {M D : Dict ((ι → ℝ) → ℝ)} {mp par : Dict (UNum ι)} (hM : TracksD M mp)
    (hD : TracksD D par) {s : Bool} {f1 f2 : (ι → ℝ) → ℝ} {l1 l2 : UNum ι} (h1 : Tracks f1 l1)
    (h2 : Tracks f2 l2) (hc : Real.cos (par.getD "lam" (PyNum.lit 0)).nom ≠ 0)
    (hb : ∀ key ∈ alphaKeysN mp, Real.cos ((par.getD "lam" (PyNum.lit 0)).nom -
      (mp.getD key (PyNum.lit 0)).nom * Real.pi / 180) ≠ 0)
    {lines : Dict (List (UNum ι × UNum ι × UNum ι))} (h : partComLinesN mp par s l1 l2 = .ok lines) :
    ∃ L, TracksL L lines ∧ Near fun z =>
      partComLinesN (evalD M z) (evalD D z) s (f1 z) (f2 z) = .ok (evalL L z) := by
  have hkeys : ∀ z, alphaKeysN (evalD M z) = alphaKeysN mp := fun z => by
    unfold alphaKeysN
    rw [hM.keys]
  have hL : List.Forall₂ (fun a b : String => a = b ∧ b ∈ alphaKeysN mp) (alphaKeysN mp) (alphaKeysN mp) := by
    rw [List.forall₂_same]
    exact fun k hk => ⟨rfl, hk⟩
  have h0 : TracksL ((comLineParts s).map fun p => (p, ([] : List (Q3 ι))))
      ((comLineParts s).map fun p => (p, [])) := by
    unfold TracksL
    rw [List.forall₂_map_left_iff, List.forall₂_map_right_iff, List.forall₂_same]
    exact fun p _ => ⟨rfl, List.Forall₂.nil⟩
  unfold partComLinesN at h
  obtain ⟨L, hT, hn⟩ := foldlM_tracks (evA := fun (k : String) (_ : ι → ℝ) => k) (Rel := TracksL) (ev := evalL)
    (g := fun z => comLineStepN (evalD D z) (evalD M z) (f1 z) (f2 z))
    (fun X x S s s' hX hS hx => by
      obtain ⟨rfl, hmem⟩ := hX
      exact comLineStep_tracks hM hD h1 h2 hc (hb _ hmem) hS hx) hL h0 h
  refine ⟨L, hT, Near.mono hn fun z hz => ?_⟩
  unfold partComLinesN
  rw [hkeys]
  simpa [evalL, List.map_map, Function.comp_def] using hz

/-! ## Centres of mass -/

theorem intersection_tracks {F G : Q3 ι} {s t : UNum ι × UNum ι × UNum ι} (hF : TracksT F s) (hG : TracksT G t)
    (hne : s.1.nom ≠ t.1.nom) :
    Tracks (fun z => (lineIntersectionN (F.1 z, F.2.1 z) (G.1 z, G.2.1 z)).1)
      (lineIntersectionN (s.1, s.2.1) (t.1, t.2.1)).1 ∧
    Tracks (fun z => (lineIntersectionN (F.1 z, F.2.1 z) (G.1 z, G.2.1 z)).2)
      (lineIntersectionN (s.1, s.2.1) (t.1, t.2.1)).2 := by
  have one : Tracks (fun _ : ι → ℝ => (PyNum.lit 1 : ℝ)) (PyNum.lit 1 : UNum ι) := Tracks.lit 1
  have hd := one.div ((hF.m.neg.mul one).sub (one.mul hG.m.neg)) (by
    show -s.1.nom * 1 - 1 * -t.1.nom ≠ 0
    intro h
    apply hne
    linarith)
  constructor
  · exact ((hd.mul one).mul hF.b).add ((hd.mul one.neg).mul hG.b)
  · exact ((hd.mul hG.m.neg.neg).mul hF.b).add ((hd.mul hF.m.neg).mul hG.b)

end BP
