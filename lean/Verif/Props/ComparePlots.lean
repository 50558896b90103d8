import Verif.Model.ComparePlots
import Verif.Props.SpeedPlots
import Verif.Props.Steer
import Mathlib.Analysis.SpecialFunctions.Log.Base

/-!
# C120, C121: comparison of bicycles and of speeds
-/

set_option linter.unusedSimpArgs false

namespace BP

open Matrix Spec

/-! ## C120: plot_eigenvalues -/

/-- The entries of matplotlib's legend, label and colour: the lines whose label does not begin
with an underscore. -/
def Spec.legendEntries (lines : List StyledLine) : List (String × String) :=
  (lines.filter fun l => decide (l.label.toList.head? ≠ some '_')).map fun l => (l.label, l.color)

/-- The colour of bicycle `k` of `n`: the one in the given list, or one of a colour map (over
[0, 1]) without a list. -/
noncomputable def Spec.bikeColor (cmap : ℝ → String) (colors : List String) (n k : ℕ) : String :=
  if colors = [] then cmap ((k : ℝ) / n) else colors.getD k ""

/-- The lines of one bicycle with `largest`: through the largest real part of an exponent of the
motion at each speed, and the line of zeros. -/
def Spec.LargestGroup (c : Canon) (g : ℝ) (xs : List ℝ) (name color style : String)
    (lines : List StyledLine) : Prop :=
  ∃ ys, lines = [⟨name, color, style, xs, ys⟩, ⟨"_nolegend_", "k", "-", xs, xs.map fun _ => 0⟩] ∧
    List.Forall₂ (fun v y => (∃ l : ℂ, (pencil c v g l).det = 0 ∧ y = l.re) ∧
      ∀ l : ℂ, (pencil c v g l).det = 0 → l.re ≤ y) xs ys

/-- The lines of one bicycle otherwise: four modes, each a sequence of exponents of the motion;
dashed lines of the absolute values of the imaginary parts, the line of zeros, and the real
parts, the last of which carries the name. -/
def Spec.ModesGroup (c : Canon) (g : ℝ) (xs : List ℝ) (name color : String)
    (lines : List StyledLine) : Prop :=
  ∃ w1 w2 ca cs : List ℂ, lines =
      [w1, w2, ca, cs].map (fun m => ⟨"_nolegend_", color, "--", xs, m.map fun l => |l.im|⟩) ++
      ⟨"_nolegend_", "k", "-", xs, xs.map fun _ => 0⟩ ::
      [w1, w2, ca].map (fun m => ⟨"_nolegend_", color, "-", xs, m.map Complex.re⟩) ++
      [⟨name, color, "-", xs, cs.map Complex.re⟩] ∧
    (∀ mode ∈ [w1, w2, ca, cs], List.Forall₂ (fun v l => (pencil c v g l).det = 0) xs mode) ∧
    ∃ v0 l0 l1 l2 l3, xs.head? = some v0 ∧ w1.head? = some l0 ∧ w2.head? = some l1 ∧
      ca.head? = some l2 ∧ cs.head? = some l3 ∧ ∀ l : ℂ,
        (pencil c v0 g l).det = c.M.det * ((l - l0) * (l - l1) * (l - l2) * (l - l3))

theorem bikeLines_largest (eig : Eig 4) (heig : ∀ A, EigenpairsOf A (eig A))
    {params : Dict (Dict ℝ)} {c : Canon} {g : ℝ} (hp : HasModel params c g)
    (name color style : String) (speeds : List ℝ) (hne : speeds ≠ []) :
    ∃ lines, bikeLines eig params name color style true speeds = .ok lines ∧
      LargestGroup c g (npSort speeds) name color style lines := by
  obtain ⟨xs, ys, h, hf⟩ := C109_largest eig heig hp name true speeds hne
  have hx : xs = npSort speeds := by
    have := plotEigenvaluesVsSpeed_run eig hp name true true speeds hne
    rw [h] at this
    exact congrArg Prod.fst (Except.ok.inj this)
  refine ⟨_, by rw [bikeLines, h]; rfl, ys, ?_, ?_⟩
  · simp [styled, zeroLine, hx]
  · rw [← hx]
    exact hf.imp fun v y h => ⟨h.1, h.2.1⟩

theorem bikeLines_modes (eig : Eig 4) (heig : ∀ A, EigenpairsOf A (eig A))
    {params : Dict (Dict ℝ)} {c : Canon} {g : ℝ} (hp : HasModel params c g)
    (name color style : String) (speeds : List ℝ) (hne : speeds ≠ []) :
    ∃ lines, bikeLines eig params name color style false speeds = .ok lines ∧
      ModesGroup c g (npSort speeds) name color lines := by
  obtain ⟨xs, w1, w2, ca, cs, h, h1, h2⟩ := C109_modes eig heig hp name speeds hne
  have e1 := plotEigenvaluesVsSpeed_run eig hp name false false speeds hne
  have e2 := plotEigenvaluesVsSpeed_run eig hp name true false speeds hne
  rw [h] at e1
  have e3 := Except.ok.inj e1
  have hx : xs = npSort speeds := congrArg Prod.fst e3
  have hys := congrArg Prod.snd e3
  simp only [Bool.false_eq_true, if_false, modeCurves, speedLegend, List.cons.injEq, Curve.mk.injEq,
    and_true] at hys
  subst hx
  obtain ⟨⟨_, y0⟩, ⟨_, y1⟩, ⟨_, y2⟩, ⟨_, y3⟩, ⟨_, y4⟩, ⟨_, y5⟩, ⟨_, y6⟩, ⟨_, y7⟩⟩ := hys
  refine ⟨_, by rw [bikeLines, e2]; rfl, w1, w2, ca, cs, ?_, h1, h2⟩
  simp only [Bool.false_eq_true, if_false, modeCurves, speedLegend, if_true, y0, y1, y2, y3, y4, y5,
    y6, y7, styled, zeroLine, List.take, List.drop, List.map_cons, List.map_nil, List.cons_append,
    List.nil_append]
  rfl

theorem addBikes_run (eig : Eig 4) (cs ls : List String) (largest : Bool) (speeds : List ℝ)
    (P : String × Dict (Dict ℝ) → String → String → List StyledLine → Prop)
    (hP : ∀ (b : String × Dict (Dict ℝ)) (color style : String) (lines : List StyledLine),
      bikeLines eig b.2 b.1 color style largest speeds = .ok lines → P b color style lines) :
    ∀ (bikes : List (String × Dict (Dict ℝ))) (i : ℕ) (fig : List StyledLine),
    (∀ b ∈ bikes, ∀ color style, ∃ lines,
      bikeLines eig b.2 b.1 color style largest speeds = .ok lines) →
    i + bikes.length ≤ cs.length → i + bikes.length ≤ ls.length →
    ∃ groups : List (List StyledLine),
      addBikes eig cs ls largest speeds bikes i fig = .ok (fig ++ groups.flatten) ∧
      groups.length = bikes.length ∧ ∀ (k : ℕ) (b : String × Dict (Dict ℝ)), bikes[k]? = some b →
        ∃ color style lines, cs[i + k]? = some color ∧ ls[i + k]? = some style ∧
          groups[k]? = some lines ∧ P b color style lines
  | [], i, fig, _, _, _ => ⟨[], by simp [addBikes], rfl, by simp⟩
  | b :: bikes, i, fig, hok, hc, hl => by
    simp only [List.length_cons] at hc hl
    have h1 : i < cs.length := by omega
    have h2 : i < ls.length := by omega
    obtain ⟨lines, hlines⟩ := hok b (by simp) cs[i] ls[i]
    obtain ⟨groups, hrun, hlen, hg⟩ := addBikes_run eig cs ls largest speeds P hP bikes (i + 1)
      (fig ++ lines) (fun b' hb' => hok b' (by simp [hb'])) (by omega) (by omega)
    refine ⟨lines :: groups, ?_, by simp [hlen], ?_⟩
    · simp only [addBikes, listItem, List.getElem?_eq_getElem h1, List.getElem?_eq_getElem h2,
        Except.bind, hlines, hrun]
      simp
    · intro k b' hk
      cases k with
      | zero =>
        simp only [List.getElem?_cons_zero, Option.some.injEq] at hk
        subst hk
        exact ⟨_, _, lines, by simp,
          by simp, rfl, hP _ _ _ _ hlines⟩
      | succ k =>
        obtain ⟨color, style, l, h3, h4, h5, h6⟩ := hg k b' (by simpa using hk)
        exact ⟨color, style, l, by rw [← h3]; congr 1; omega, by rw [← h4]; congr 1; omega,
          by simpa using h5, h6⟩

theorem bikeColors_get (cmap : ℝ → String) (colors : List String) (n k : ℕ) (hk : k < n)
    (hc : colors = [] ∨ n ≤ colors.length) :
    n ≤ (bikeColors cmap n colors).length ∧
      (bikeColors cmap n colors)[k]? = some (bikeColor cmap colors n k) := by
  unfold bikeColors bikeColor
  split
  · simp [rainbow, hk]
  · rename_i h
    have hn := hc.resolve_left h
    exact ⟨hn, by
      have : k < colors.length := by omega
      simp [List.getElem?_eq_getElem this]⟩

theorem bikeStyles_get (styles : List String) (n k : ℕ) (hk : k < n)
    (hc : styles = [] ∨ n ≤ styles.length) :
    n ≤ (bikeStyles n styles).length ∧
      (bikeStyles n styles)[k]? = some (if styles = [] then "-" else styles.getD k "") := by
  unfold bikeStyles
  split
  · simp [hk]
  · rename_i h
    have hn := hc.resolve_left h
    exact ⟨hn, by
      have : k < styles.length := by omega
      simp [List.getElem?_eq_getElem this]⟩

/-- **C120.** The figure consists of one group of lines for each bicycle, in the order given, in
that bicycle's colour: with `largest` the largest real part of its exponents in its line style,
otherwise its modes. -/
theorem C120_groups (eig : Eig 4) (heig : ∀ A, EigenpairsOf A (eig A)) (cmap : ℝ → String)
    (bikes : List (String × Dict (Dict ℝ))) (hb : bikes ≠ [])
    (hm : ∀ b ∈ bikes, ∃ c g, HasModel b.2 c g) (speeds : List ℝ) (hne : speeds ≠ [])
    (colors styles : List String) (hc : colors = [] ∨ bikes.length ≤ colors.length)
    (hs : styles = [] ∨ bikes.length ≤ styles.length) (largest : Bool) :
    ∃ (xs : List ℝ) (groups : List (List StyledLine)),
      plotEigenvalues eig cmap bikes speeds colors styles largest = .ok groups.flatten ∧
      xs.Perm speeds ∧ xs.Pairwise (· ≤ ·) ∧ groups.length = bikes.length ∧
      ∀ (k : ℕ) (b : String × Dict (Dict ℝ)) (c : Canon) (g : ℝ), bikes[k]? = some b →
        HasModel b.2 c g → ∃ lines, groups[k]? = some lines ∧
          (largest = true → LargestGroup c g xs b.1 (bikeColor cmap colors bikes.length k)
            (if styles = [] then "-" else styles.getD k "") lines) ∧
          (largest = false → ModesGroup c g xs b.1 (bikeColor cmap colors bikes.length k) lines) := by
  have hpos : 0 < bikes.length := List.length_pos_iff.2 hb
  have hrun : ∀ (b : String × Dict (Dict ℝ)) (color style : String) (c : Canon) (g : ℝ),
      HasModel b.2 c g → ∃ lines, bikeLines eig b.2 b.1 color style largest speeds = .ok lines ∧
        (largest = true → LargestGroup c g (npSort speeds) b.1 color style lines) ∧
        (largest = false → ModesGroup c g (npSort speeds) b.1 color lines) := by
    intro b color style c g h
    cases largest
    · obtain ⟨lines, h1, h2⟩ := bikeLines_modes eig heig h b.1 color style speeds hne
      exact ⟨lines, h1, by simp, fun _ => h2⟩
    · obtain ⟨lines, h1, h2⟩ := bikeLines_largest eig heig h b.1 color style speeds hne
      exact ⟨lines, h1, fun _ => h2, by simp⟩
  obtain ⟨groups, h1, h2, h3⟩ := addBikes_run eig (bikeColors cmap bikes.length colors)
    (bikeStyles bikes.length styles) largest speeds
    (fun b color style lines => bikeLines eig b.2 b.1 color style largest speeds = .ok lines)
    (fun _ _ _ _ h => h) bikes 0 []
    (fun b hb' color style => by
      obtain ⟨c, g, h⟩ := hm b hb'
      obtain ⟨lines, h1, _⟩ := hrun b color style c g h
      exact ⟨lines, h1⟩)
    (by rw [zero_add]; exact (bikeColors_get cmap colors _ 0 hpos hc).1)
    (by rw [zero_add]; exact (bikeStyles_get styles _ 0 hpos hs).1)
  refine ⟨npSort speeds, groups, by rw [plotEigenvalues, if_neg hb, h1]; simp,
    List.perm_insertionSort _ _, List.pairwise_insertionSort _ _, h2, ?_⟩
  intro k b c g hk hmod
  have hlt : k < bikes.length := (List.getElem?_eq_some_iff.1 hk).1
  obtain ⟨color, style, lines, e1, e2, e3, e4⟩ := h3 k b hk
  rw [zero_add] at e1 e2
  rw [(bikeColors_get cmap colors _ k hlt hc).2, Option.some.injEq] at e1
  rw [(bikeStyles_get styles _ k hlt hs).2, Option.some.injEq] at e2
  subst e1 e2
  obtain ⟨lines', h4, h5⟩ := hrun b _ _ c g hmod
  rw [e4] at h4
  cases h4
  exact ⟨lines, e3, h5⟩

theorem legend_group {c : Canon} {g : ℝ} {xs : List ℝ} {name color style : String}
    {lines : List StyledLine} (hn : name.toList.head? ≠ some '_')
    (h : LargestGroup c g xs name color style lines ∨ ModesGroup c g xs name color lines) :
    legendEntries lines = [(name, color)] := by
  have h0 : ("_nolegend_" : String).toList.head? = some '_' := by decide
  rcases h with ⟨ys, rfl, _⟩ | ⟨w1, w2, ca, cs, rfl, _⟩ <;>
    simp only [legendEntries, List.map_cons, List.map_nil, List.cons_append, List.nil_append,
      List.filter_cons, List.filter_nil, h0, ne_eq, not_true_eq_false, decide_false, hn,
      not_false_eq_true, decide_true, if_true, Bool.false_eq_true, if_false]

/-- **C120.** The legend has one entry for each bicycle, in the order given: its name in its
colour. -/
theorem C120_legend (eig : Eig 4) (heig : ∀ A, EigenpairsOf A (eig A)) (cmap : ℝ → String)
    (bikes : List (String × Dict (Dict ℝ))) (hb : bikes ≠ [])
    (hm : ∀ b ∈ bikes, ∃ c g, HasModel b.2 c g)
    (hn : ∀ b ∈ bikes, b.1.toList.head? ≠ some '_') (speeds : List ℝ) (hne : speeds ≠ [])
    (colors styles : List String) (hc : colors = [] ∨ bikes.length ≤ colors.length)
    (hs : styles = [] ∨ bikes.length ≤ styles.length) (largest : Bool) :
    ∃ lines, plotEigenvalues eig cmap bikes speeds colors styles largest = .ok lines ∧
      legendEntries lines =
        bikes.zipIdx.map fun e => (e.1.1, bikeColor cmap colors bikes.length e.2) := by
  obtain ⟨xs, groups, h1, _, _, h2, h3⟩ :=
    C120_groups eig heig cmap bikes hb hm speeds hne colors styles hc hs largest
  refine ⟨_, h1, ?_⟩
  have hf : legendEntries groups.flatten = (groups.map legendEntries).flatten := by
    simp only [legendEntries, List.filter_flatten, List.map_flatten, List.map_map,
      Function.comp_def]
    rfl
  have hg : groups.map legendEntries =
      bikes.zipIdx.map fun e => [(e.1.1, bikeColor cmap colors bikes.length e.2)] := by
    refine List.ext_getElem? fun k => ?_
    by_cases hk : k < bikes.length
    · have hk' : bikes[k]? = some bikes[k] := List.getElem?_eq_getElem hk
      obtain ⟨c, g, hmod⟩ := hm bikes[k] (List.getElem_mem hk)
      obtain ⟨lines, e1, e2, e3⟩ := h3 k _ c g hk' hmod
      have : legendEntries lines = [(bikes[k].1, bikeColor cmap colors bikes.length k)] := by
        cases largest
        · exact legend_group (style := "") (hn _ (List.getElem_mem hk)) (Or.inr (e3 rfl))
        · exact legend_group (hn _ (List.getElem_mem hk)) (Or.inl (e2 rfl))
      simp [List.getElem?_map, e1, this, List.getElem?_zipIdx, hk']
    · rw [List.getElem?_eq_none (by simp; omega), List.getElem?_eq_none (by simp; omega)]
  rw [hf, hg]
  generalize bikes.zipIdx = l
  induction l with
  | nil => rfl
  | cons a l ih => simp [ih]

/-- **C120.** Without a list of colours the bicycles have distinct colours as far as the colour
map has. -/
theorem C120_colors_distinct (cmap : ℝ → String)
    (hinj : ∀ x y : ℝ, 0 ≤ x → x < 1 → 0 ≤ y → y < 1 → cmap x = cmap y → x = y) (n i j : ℕ)
    (hi : i < n) (hj : j < n) (hij : i ≠ j) : bikeColor cmap [] n i ≠ bikeColor cmap [] n j := by
  have hn : (0 : ℝ) < n := by exact_mod_cast (by omega : 0 < n)
  have bound : ∀ m : ℕ, m < n → (0 : ℝ) ≤ (m : ℝ) / n ∧ (m : ℝ) / n < 1 := fun m hm =>
    ⟨by positivity, by rw [div_lt_one hn]; exact_mod_cast hm⟩
  intro h
  simp only [bikeColor, if_true] at h
  have := hinj _ _ (bound i hi).1 (bound i hi).2 (bound j hj).1 (bound j hj).2 h
  rw [div_left_inj' hn.ne'] at this
  exact hij (by exact_mod_cast this)

theorem listItem_none {α : Type*} {l : List α} {i : ℕ} (h : l.length ≤ i) :
    listItem l i = .error .indexError := by
  simp [listItem, List.getElem?_eq_none h]

theorem addBikes_short (eig : Eig 4) (cs ls : List String) (largest : Bool) (speeds : List ℝ) :
    ∀ (bikes : List (String × Dict (Dict ℝ))) (i : ℕ) (fig : List StyledLine),
    (∀ b ∈ bikes, ∀ color style, ∃ lines,
      bikeLines eig b.2 b.1 color style largest speeds = .ok lines) → bikes ≠ [] →
    (cs.length < i + bikes.length ∨ ls.length < i + bikes.length) →
    addBikes eig cs ls largest speeds bikes i fig = .error .indexError
  | [], _, _, _, h, _ => absurd rfl h
  | b :: bikes, i, fig, hok, _, hlen => by
    simp only [addBikes]
    by_cases h1 : i < cs.length
    · by_cases h2 : i < ls.length
      · obtain ⟨lines, hl⟩ := hok b (by simp) cs[i] ls[i]
        simp only [listItem, List.getElem?_eq_getElem h1, List.getElem?_eq_getElem h2, Except.bind, hl]
        have hb : bikes ≠ [] := by
          rintro rfl
          simp only [List.length_cons, List.length_nil] at hlen
          omega
        refine addBikes_short eig cs ls largest speeds bikes (i + 1) _
          (fun b' hb' => hok b' (by simp [hb'])) hb ?_
        simp only [List.length_cons] at hlen
        omega
      · rw [listItem_none (not_lt.1 h2)]
        simp [listItem, List.getElem?_eq_getElem h1, Except.bind]
    · rw [listItem_none (not_lt.1 h1)]
      rfl

/-- **C120.** Without bicycles the call raises `UnboundLocalError`; a non-empty list of colours or
of line styles that is shorter than the list of bicycles makes it raise `IndexError`. -/
theorem C120_failures (eig : Eig 4) (cmap : ℝ → String) (bikes : List (String × Dict (Dict ℝ)))
    (speeds : List ℝ) (colors styles : List String) (largest : Bool) :
    plotEigenvalues eig cmap [] speeds colors styles largest = .error .unboundLocal ∧
    ((∀ b ∈ bikes, ∃ c g, HasModel b.2 c g) → speeds ≠ [] →
      (colors ≠ [] ∧ colors.length < bikes.length ∨ styles ≠ [] ∧ styles.length < bikes.length) →
      plotEigenvalues eig cmap bikes speeds colors styles largest = .error .indexError) := by
  refine ⟨by simp [plotEigenvalues], fun hm hne h => ?_⟩
  have hb : bikes ≠ [] := by
    rintro rfl
    simp at h
  rw [plotEigenvalues, if_neg hb]
  refine addBikes_short eig _ _ largest speeds bikes 0 [] ?_ hb ?_
  · intro b hb' color style
    obtain ⟨c, g, hp⟩ := hm b hb'
    exact ⟨_, by rw [bikeLines, plotEigenvaluesVsSpeed_run eig hp _ _ _ _ hne]; rfl⟩
  · rw [zero_add]
    rcases h with ⟨h1, h2⟩ | ⟨h1, h2⟩
    · left; simpa [bikeColors, h1] using h2
    · right; simpa [bikeStyles, h1] using h2

/-- **C120.** The line styles have no effect unless `largest` is asked for. -/
theorem C120_styles_ignored (eig : Eig 4) (cmap : ℝ → String)
    (bikes : List (String × Dict (Dict ℝ))) (speeds : List ℝ) (colors styles : List String)
    (hs : bikes.length ≤ styles.length) :
    plotEigenvalues eig cmap bikes speeds colors styles false =
      plotEigenvalues eig cmap bikes speeds colors [] false := by
  unfold plotEigenvalues
  split
  · rfl
  · rename_i hb
    have hpos : 0 < bikes.length := List.length_pos_iff.2 hb
    have gen : ∀ (l1 l2 : List String) (bs : List (String × Dict (Dict ℝ))) (i : ℕ)
        (fig : List StyledLine), i + bs.length ≤ l1.length → i + bs.length ≤ l2.length →
        addBikes eig (bikeColors cmap bikes.length colors) l1 false speeds bs i fig =
          addBikes eig (bikeColors cmap bikes.length colors) l2 false speeds bs i fig := by
      intro l1 l2 bs
      induction bs with
      | nil => intros; rfl
      | cons b bs ih =>
        intro i fig h1 h2
        simp only [List.length_cons] at h1 h2
        have e1 : i < l1.length := by omega
        have e2 : i < l2.length := by omega
        simp only [addBikes, listItem, List.getElem?_eq_getElem e1, List.getElem?_eq_getElem e2,
          Except.bind]
        have hst : ∀ color s1 s2, bikeLines eig b.2 b.1 color s1 false speeds =
            bikeLines eig b.2 b.1 color s2 false speeds := fun _ _ _ => rfl
        simp only [hst _ l1[i] l2[i], ih (i + 1) _ (by omega) (by omega)]
    refine gen _ _ bikes 0 [] ?_ ?_ <;> rw [zero_add]
    · exact (bikeStyles_get styles _ 0 hpos (Or.inr hs)).1
    · exact (bikeStyles_get [] _ 0 hpos (Or.inl rfl)).1

/-- The hypotheses of C120 are met by two bicycles. -/
theorem example_compare : ∃ (eig : Eig 4), (∀ A, EigenpairsOf A (eig A)) ∧
    (∀ b ∈ [("Browser", [("Benchmark", twoRangesDict)]), ("Yellow", [("Benchmark", twoRangesDict)])],
      (∃ c g, HasModel b.2 c g) ∧ b.1.toList.head? ≠ some '_') := by
  obtain ⟨eig, heig⟩ := exists_correct_eig 4
  refine ⟨eig, heig, ?_⟩
  intro b hb
  simp only [List.mem_cons, List.not_mem_nil, or_false] at hb
  rcases hb with rfl | rfl
  · exact ⟨⟨_, _, twoRanges_hasModel⟩, by decide⟩
  · exact ⟨⟨_, _, twoRanges_hasModel⟩, by decide⟩

/-! ## C121: comparisons of frequency responses -/

/-- `m` dB and `p` degrees are the magnitude and the phase of `z`. -/
def Spec.IsPolar (m p : ℝ) (z : ℂ) : Prop :=
  z = ((10 : ℝ) ^ (m / 20) : ℝ) * Complex.exp (Complex.I * ((p * (Real.pi / 180) : ℝ) : ℂ))

/-- What is assumed of `control.bode`: magnitude and phase of the response of the system, at each
of the frequencies where that is unique and not zero. -/
structure Spec.IsBode (bode : Bode) : Prop where
  mags : ∀ s ws, (bode s ws).1.length = ws.length
  phases : ∀ s ws, (bode s ws).2.length = ws.length
  value : ∀ s ws (i : ℕ) w m p z, ws[i]? = some w → (bode s ws).1[i]? = some m →
    (bode s ws).2[i]? = some p → (∀ z', Response s w z' ↔ z' = z) → z ≠ 0 → IsPolar m p z

theorem represents_exists (z : ℂ) (hz : z ≠ 0) : ∃ m p, IsPolar m p z := by
  refine ⟨20 * Real.logb 10 ‖z‖, Complex.arg z * (180 / Real.pi), ?_⟩
  have hpos : 0 < ‖z‖ := norm_pos_iff.2 hz
  have e1 : 20 * Real.logb 10 ‖z‖ / 20 = Real.logb 10 ‖z‖ := by ring
  have e2 : Complex.arg z * (180 / Real.pi) * (Real.pi / 180) = Complex.arg z := by
    field_simp
  unfold IsPolar
  rw [e1, e2, Real.rpow_logb (by norm_num) (by norm_num) hpos, mul_comm Complex.I]
  exact (Complex.norm_mul_exp_arg_mul_I z).symm

/-- Such a function exists. -/
theorem example_isBode : ∃ bode : Bode, IsBode bode := by
  have h : ∀ (s : Siso) (w : ℝ), ∃ mp : ℝ × ℝ, ∀ z, (∀ z', Response s w z' ↔ z' = z) → z ≠ 0 →
      IsPolar mp.1 mp.2 z := by
    intro s w
    by_cases hz : ∃ z, (∀ z', Response s w z' ↔ z' = z) ∧ z ≠ 0
    · obtain ⟨z, h1, h2⟩ := hz
      obtain ⟨m, p, hr⟩ := represents_exists z h2
      refine ⟨(m, p), fun z' h3 _ => ?_⟩
      have : z = z' := (h3 z).1 ((h1 z).2 rfl)
      exact this ▸ hr
    · exact ⟨(0, 0), fun z h1 h2 => absurd ⟨z, h1, h2⟩ hz⟩
  choose f hf using h
  refine ⟨fun s ws => (ws.map fun w => (f s w).1, ws.map fun w => (f s w).2), by simp, by simp, ?_⟩
  intro s ws i w m p z h1 h2 h3 h4 h5
  simp only [List.getElem?_map, h1, Option.map_some, Option.some.injEq] at h2 h3
  subst h2 h3
  exact hf s w z h4 h5

/-- Whole turns do not change what a phase represents. -/
theorem represents_shift {m p : ℝ} {z : ℂ} (h : IsPolar m p z) (n : ℤ) :
    IsPolar m (p - 360 * n) z := by
  unfold IsPolar at h ⊢
  rw [h]
  congr 1
  rw [Complex.exp_eq_exp_iff_exists_int]
  refine ⟨n, ?_⟩
  push_cast
  ring

/-- The index `k` that Python's `i` denotes in a list of `n` items: negative indices count from
the end. -/
def Spec.IndexOf (n : ℕ) (i : ℤ) (k : Fin n) : Prop := (k : ℤ) = i ∨ (k : ℤ) = i + n

theorem pyIndex_ok {n : ℕ} {i : ℤ} {k : Fin n} (h : IndexOf n i k) : pyIndex n i = .ok k := by
  have hk := k.isLt
  unfold pyIndex
  rcases h with h | h
  · rw [dif_pos ⟨by omega, by omega⟩]
    congr 1
    exact Fin.ext (by simp; omega)
  · rw [dif_neg (by omega), dif_pos ⟨by omega, by omega⟩]
    congr 1
    exact Fin.ext (by simp; omega)

theorem pyIndex_error {n : ℕ} {i : ℤ} (h : ∀ k, ¬ IndexOf n i k) : pyIndex n i = .error .indexError := by
  unfold pyIndex
  rw [dif_neg, dif_neg]
  · intro hi
    exact h ⟨(i + n).toNat, by omega⟩ (Or.inr (by simp; omega))
  · intro hi
    exact h ⟨i.toNat, by omega⟩ (Or.inl (by simp; omega))

/-- Magnitudes and phases over `control`'s frequencies `ws` are the frequency response, from the
torque `u` to the quantity `y`, of the bicycle at speed `v`. -/
structure Spec.ResponseLine (c : Canon) (g v : ℝ) (u : Fin 2) (y : Fin 4) (ws mags phases : List ℝ) :
    Prop where
  mags_length : mags.length = ws.length
  phases_length : phases.length = ws.length
  value : ∀ (i : ℕ) w m p q, ws[i]? = some w → mags[i]? = some m → phases[i]? = some p →
    (pencil c v g (Complex.I * w)).det ≠ 0 → Answer c v g w u q → observed w q y ≠ 0 →
    IsPolar m p (observed w q y)

/-- The system of the bicycle. -/
noncomputable def sisoOf (c : Canon) (g v : ℝ) (u : Fin 2) (y : Fin 4) : Siso :=
  ⟨abA c.M c.C1 c.K0 c.K2 v g, fun i => abB c.M i u, (1 : Matrix (Fin 4) (Fin 4) ℝ) y, 0⟩

theorem responseLine_of_isBode {bode : Bode} (hb : IsBode bode) {params : Dict (Dict ℝ)} {c : Canon}
    {g : ℝ} (hp : HasModel params c g) (v : ℝ) (u : Fin 2) (y : Fin 4) (ws : List ℝ) :
    ResponseLine c g v u y ws (bode (sisoOf c g v u y) ws).1 (bode (sisoOf c g v u y) ws).2 := by
  refine ⟨hb.mags _ _, hb.phases _ _, ?_⟩
  intro i w m p q h1 h2 h3 hdet hq hz
  obtain ⟨s, hs, hr⟩ := C110_bode hp v u y
  rw [bodeSystem_run hp v u y] at hs
  have : s = sisoOf c g v u y := (Except.ok.inj hs).symm
  subst this
  refine hb.value _ ws i w m p _ h1 h2 h3 (fun z' => ?_) hz
  rw [hr w z']
  constructor
  · rintro ⟨q', hq', rfl⟩
    have hunit : IsUnit (pencil c v g (Complex.I * w)).det := isUnit_iff_ne_zero.2 hdet
    have : q' = q := by
      unfold Answer at hq hq'
      have := congrArg ((pencil c v g (Complex.I * w))⁻¹ *ᵥ ·) (hq'.trans hq.symm)
      simpa [Matrix.mulVec_mulVec, Matrix.nonsing_inv_mul _ hunit, Matrix.one_mulVec] using this
    rw [this]
  · rintro rfl
    exact ⟨q, hq, rfl⟩

/-- The only effect on a bicycle: in its Benchmark set the wheels' `Izz` become their `Ixx`. -/
def Spec.WheelsCompleted (before after : Dict (Dict ℝ)) : Prop :=
  (∀ name, name ≠ "Benchmark" → after.find? name = before.find? name) ∧
  ∀ par, before.find? "Benchmark" = some par → ∃ par', after.find? "Benchmark" = some par' ∧
    ∀ key, par'.find? key = par.find?
      (if key = "IRzz" then "IRxx" else if key = "IFzz" then "IFxx" else key)

theorem wheelsCompleted_trans {a b c : Dict (Dict ℝ)} (h1 : WheelsCompleted a b)
    (h2 : WheelsCompleted b c) : WheelsCompleted a c := by
  refine ⟨fun name hn => (h2.1 name hn).trans (h1.1 name hn), fun par hpar => ?_⟩
  obtain ⟨par', e1, f1⟩ := h1.2 par hpar
  obtain ⟨par'', e2, f2⟩ := h2.2 par' e1
  refine ⟨par'', e2, fun key => ?_⟩
  rw [f2, f1]
  by_cases k1 : key = "IRzz"
  · simp [k1]
  · by_cases k2 : key = "IFzz"
    · simp [k2]
    · simp [k1, k2]

/-- A Bode plot leaves the bicycle's model as it is. -/
theorem hasModel_after {params : Dict (Dict ℝ)} {c : Canon} {g : ℝ} (hp : HasModel params c g) (v : ℝ) :
    ∃ ab, (bikeStateSpace params v .yes).2 = .ok ab ∧
      HasModel (bikeStateSpace params v .yes).1 c g ∧
      WheelsCompleted params (bikeStateSpace params v .yes).1 := by
  obtain ⟨par, h1, h2, h3, h4⟩ := hp.ex
  have e1 : Dict.get params "Benchmark" = .ok par := by simp [Dict.get, h1]
  have hrun : bikeStateSpace params v .yes = (Dict.set params "Benchmark"
      (Dict.set (Dict.set par "IRzz" (Dict.getD par "IRxx" 0)) "IFzz" (Dict.getD par "IFxx" 0)),
      .ok (abA c.M c.C1 c.K0 c.K2 v g, abB c.M)) := by
    unfold bikeStateSpace bikeCanonical
    rw [e1]
    simp only [canonical_of_keys par h2, selectNominal, id]
    simp [Dict.get, Dict.find?_set, h3, selectNominal, Except.map, h4]
  rw [hrun]
  have hne : ∀ k ∈ canonKeys, k ≠ "IRzz" ∧ k ≠ "IFzz" := by decide
  have hfind : ∀ k, k ≠ "IRzz" ∧ k ≠ "IFzz" → (Dict.set (Dict.set par "IRzz" (Dict.getD par "IRxx" 0)) "IFzz"
      (Dict.getD par "IFxx" 0)).find? k = par.find? k := by
    intro k hk
    rw [Dict.find?_set_of_ne _ _ (Ne.symm hk.2), Dict.find?_set_of_ne _ _ (Ne.symm hk.1)]
  refine ⟨_, rfl, ⟨⟨_, by rw [Dict.find?_set, if_pos rfl], fun k hk => ?_,
    by rw [hfind _ (by decide)]; exact h3, ?_⟩, hp.det⟩, ?_, ?_⟩
  · have := h2 k hk
    rw [Dict.has_iff_exists] at this ⊢
    rw [hfind k (hne k hk)]
    exact this
  · rw [← h4]
    congr 1
    exact ofDict_congr _ _ fun k hk => hfind k (hne k hk)
  · intro name hn
    rw [Dict.find?_set_of_ne _ _ (Ne.symm hn)]
  · intro par' hpar'
    rw [h1, Option.some.injEq] at hpar'
    subst hpar'
    refine ⟨_, by rw [Dict.find?_set, if_pos rfl], fun key => ?_⟩
    have hx : ∀ k ∈ canonKeys, par.find? k = some (par.getD k 0) := by
      intro k hk
      obtain ⟨x, hx⟩ := (Dict.has_iff_exists _ _).1 (h2 k hk)
      simp [Dict.getD, hx]
    by_cases k1 : key = "IRzz"
    · subst k1
      simp [Dict.find?_set, hx "IRxx" (by decide)]
    · by_cases k2 : key = "IFzz"
      · subst k2
        simp [Dict.find?_set, hx "IFxx" (by decide)]
      · rw [hfind key ⟨k1, k2⟩]
        simp [k1, k2]

/-- `b` is `a` shifted as a whole by whole turns, with its first value between -180 and 180. -/
def Spec.Aligned (a b : List ℝ) : Prop :=
  ∃ n : ℤ, b = a.map (fun p : ℝ => p - 360 * n) ∧ ∀ p, b.head? = some p → -180 ≤ p ∧ p ≤ 180

theorem responseLine_aligned {c : Canon} {g v : ℝ} {u : Fin 2} {y : Fin 4} {ws mags a b : List ℝ}
    (h : ResponseLine c g v u y ws mags a) (hab : Aligned a b) : ResponseLine c g v u y ws mags b := by
  obtain ⟨n, rfl, _⟩ := hab
  refine ⟨h.mags_length, by rw [List.length_map, h.phases_length], ?_⟩
  intro i w m p q h1 h2 h3 h4 h5 h6
  rw [List.getElem?_map, Option.map_eq_some_iff] at h3
  obtain ⟨p', h3, rfl⟩ := h3
  exact represents_shift (h.value i w m p' q h1 h2 h3 h4 h5 h6) n

theorem alignAll : ∀ ls : List BodeLine, (∀ l ∈ ls, l.ys ≠ []) →
    ∃ ls' : List BodeLine, (ls.mapM fun l : BodeLine => (alignPhase l.ys).map fun ys => BodeLine.mk l.label ys) =
      .ok ls' ∧ List.Forall₂ (fun a b => b.label = a.label ∧ Aligned a.ys b.ys) ls ls'
  | [], _ => ⟨[], rfl, .nil⟩
  | l :: ls, h => by
    obtain ⟨ls', h1, h2⟩ := alignAll ls fun l' hl' => h l' (by simp [hl'])
    obtain ⟨y, ys, hy⟩ := List.exists_cons_of_ne_nil (h l (by simp))
    obtain ⟨⟨n, e, hlo, hhi⟩, _⟩ := C43_phase_alignment y ys
    refine ⟨⟨l.label, (y :: ys).map fun v => v - 360 * n⟩ :: ls', ?_, .cons ⟨rfl, n, by rw [hy], ?_⟩ h2⟩
    · rw [List.mapM_cons, hy, e]
      rw [h1]
      rfl
    · intro p hp
      simp only [List.map_cons, List.head?_cons, Option.some.injEq] at hp
      subst hp
      exact ⟨hlo, hhi⟩

/-- The lines of a figure (none of one without axes). -/
def Spec.magsOf (fig : Option BodeFigure) : List BodeLine := (fig.map BodeFigure.mags).getD []

@[inherit_doc Spec.magsOf]
def Spec.phasesOf (fig : Option BodeFigure) : List BodeLine := (fig.map BodeFigure.phases).getD []

/-- `out` is the figure `fig` with one line more for each label in both axes, the `k`-th of which
satisfies `R k`; the phase lines that were there have been aligned too. -/
def Spec.Compared (fig : Option BodeFigure) (labels : List String) (R : ℕ → List ℝ → List ℝ → Prop)
    (out : BodeFigure) : Prop :=
  ∃ (old : List BodeLine) (new : List (List ℝ × List ℝ)), new.length = labels.length ∧
    out.mags = magsOf fig ++ List.zipWith (fun l r => ⟨l, r.1⟩) labels new ∧
    out.phases = old ++ List.zipWith (fun l r => ⟨l, r.2⟩) labels new ∧
    List.Forall₂ (fun a b => b.label = a.label ∧ Aligned a.ys b.ys) (phasesOf fig) old ∧
    ∀ (k : ℕ) r, new[k]? = some r → R k r.1 r.2 ∧ ∀ p, r.2.head? = some p → -180 ≤ p ∧ p ≤ 180

/-- Successive additions. -/
def addMany (title : String) (items : List (String × (List ℝ × List ℝ))) (fig : Option BodeFigure) :
    Option BodeFigure :=
  items.foldl (fun f it => some (addBode title it.1 it.2 f)) fig

theorem addMany_eq (title : String) : ∀ (items : List (String × (List ℝ × List ℝ)))
    (fig : Option BodeFigure), items ≠ [] ∨ fig.isSome →
    ∃ t, addMany title items fig = some ⟨t, magsOf fig ++ items.map (fun it => ⟨it.1, it.2.1⟩),
      phasesOf fig ++ items.map (fun it => ⟨it.1, it.2.2⟩)⟩ ∧ (items ≠ [] → t = title)
  | [], none, h => by simp at h
  | [], some f, _ => ⟨f.title, by simp [addMany, magsOf, phasesOf], by simp⟩
  | it :: items, fig, _ => by
    obtain ⟨t, h1, h2⟩ := addMany_eq title items (some (addBode title it.1 it.2 fig)) (Or.inr rfl)
    refine ⟨t, ?_, ?_⟩
    · unfold addMany at h1 ⊢
      rw [List.foldl_cons, h1]
      cases fig <;> simp [addBode, magsOf, phasesOf]
    · intro _
      by_cases hi : items = []
      · subst hi
        have : some (addBode title it.1 it.2 fig) = some (⟨t, _, _⟩ : BodeFigure) := h1
        have := congrArg (Option.map BodeFigure.title) this
        cases fig <;> simpa [addBode, eq_comm] using this
      · exact h2 hi

theorem forall₂_append_split {α β : Type*} {R : α → β → Prop} : ∀ (a b : List α) (l : List β),
    List.Forall₂ R (a ++ b) l → ∃ l1 l2, l = l1 ++ l2 ∧ List.Forall₂ R a l1 ∧ List.Forall₂ R b l2
  | [], b, l, h => ⟨[], l, rfl, .nil, h⟩
  | x :: a, b, l, h => by
    cases h with
    | cons h1 h2 =>
      obtain ⟨l1, l2, rfl, h3, h4⟩ := forall₂_append_split a b _ h2
      exact ⟨_ :: l1, l2, rfl, .cons h1 h3, h4⟩

theorem aligned_lines {items : List (String × (List ℝ × List ℝ))} {nw : List BodeLine}
    (h : List.Forall₂ (fun (it : String × (List ℝ × List ℝ)) b => b.label = it.1 ∧ Aligned it.2.2 b.ys)
      items nw) :
    (List.zipWith (fun it l => (it.2.1, l.ys)) items nw).length = (items.map Prod.fst).length ∧
    items.map (fun it => (⟨it.1, it.2.1⟩ : BodeLine)) = List.zipWith (fun l r => ⟨l, r.1⟩)
      (items.map Prod.fst) (List.zipWith (fun it l => (it.2.1, l.ys)) items nw) ∧
    nw = List.zipWith (fun l r => ⟨l, r.2⟩)
      (items.map Prod.fst) (List.zipWith (fun it l => (it.2.1, l.ys)) items nw) := by
  induction h with
  | nil => simp
  | @cons it b its bs h1 _ ih =>
    obtain ⟨i1, i2, i3⟩ := ih
    refine ⟨by simpa using i1, by simpa using i2, ?_⟩
    simp only [List.zipWith_cons_cons, List.map_cons, List.cons.injEq]
    refine ⟨?_, i3⟩
    rw [← h1.1]

theorem alignFigure_run (title : String) (items : List (String × (List ℝ × List ℝ)))
    (fig : Option BodeFigure) (hne : items ≠ [] ∨ fig.isSome) (hold : ∀ l ∈ phasesOf fig, l.ys ≠ [])
    (hitems : ∀ it ∈ items, it.2.2 ≠ []) (R : ℕ → List ℝ → List ℝ → Prop)
    (hR : ∀ (k : ℕ) it, items[k]? = some it → ∀ b, Aligned it.2.2 b → R k it.2.1 b) :
    ∃ out, alignFigure (addMany title items fig) = .ok out ∧ (items ≠ [] → out.title = title) ∧
      Compared fig (items.map Prod.fst) R out := by
  obtain ⟨t, h1, h2⟩ := addMany_eq title items fig hne
  obtain ⟨ls', h3, h4⟩ := alignAll (phasesOf fig ++ items.map (fun it => ⟨it.1, it.2.2⟩)) (by
    intro l hl
    rcases List.mem_append.1 hl with hl | hl
    · exact hold l hl
    · obtain ⟨it, hit, rfl⟩ := List.mem_map.1 hl
      exact hitems it hit)
  obtain ⟨old, nw, rfl, h5, h6⟩ := forall₂_append_split _ _ _ h4
  rw [List.forall₂_map_left_iff] at h6
  obtain ⟨e1, e2, e3⟩ := aligned_lines h6
  refine ⟨⟨t, magsOf fig ++ items.map (fun it => ⟨it.1, it.2.1⟩), old ++ nw⟩, ?_, h2, old,
    List.zipWith (fun it l => (it.2.1, l.ys)) items nw, e1, by rw [← e2], by rw [← e3], h5, ?_⟩
  · rw [h1]
    simp only [alignFigure, h3]
    rfl
  · intro k r hr
    rw [List.getElem?_zipWith] at hr
    cases hk : items[k]? with
    | none => simp [hk] at hr
    | some it =>
      cases hk' : nw[k]? with
      | none => simp [hk, hk'] at hr
      | some l =>
        simp only [hk, hk', Option.some.injEq] at hr
        subst hr
        have hal : Aligned it.2.2 l.ys := by
          obtain ⟨i1, i2⟩ := List.getElem?_eq_some_iff.1 hk
          obtain ⟨j1, j2⟩ := List.getElem?_eq_some_iff.1 hk'
          have h8 := (List.forall₂_iff_get.1 h6).2 k i1 j1
          simp only [List.get_eq_getElem, i2, j2] at h8
          exact h8.2
        exact ⟨hR k it hk _ hal, hal.choose_spec.2⟩

theorem plotBode_run (bode : Bode) {params : Dict (Dict ℝ)} {c : Canon} {g : ℝ}
    (hp : HasModel params c g) (v : ℝ) {u y : ℤ} {u' : Fin 2} {y' : Fin 4} (hu : IndexOf 2 u u')
    (hy : IndexOf 4 y y') (label : String) (fig : Option BodeFigure) :
    ∃ params', (HasModel params' c g ∧ WheelsCompleted params params') ∧ plotBode bode params v u y label fig = (params',
      .ok (addBode (inputNames u' ++ " to " ++ outputNames y') label
        (bode (sisoOf c g v u' y') bodeFrequencies) fig)) := by
  obtain ⟨ab, h1, h2⟩ := hasModel_after hp v
  refine ⟨_, h2, ?_⟩
  unfold plotBode
  rcases h : bikeStateSpace params v .yes with ⟨p', r⟩
  rw [h] at h1
  dsimp only at h1
  subst h1
  simp only [pyIndex_ok hu, pyIndex_ok hy, Except.bind, bodeSystem_run hp]
  rfl

theorem bodeSpeeds_run (bode : Bode) (str : ℝ → String) {c : Canon} {g : ℝ} {u y : ℤ} {u' : Fin 2}
    {y' : Fin 4} (hu : IndexOf 2 u u') (hy : IndexOf 4 y y') :
    ∀ (vs : List ℝ) (params : Dict (Dict ℝ)) (fig : Option BodeFigure), HasModel params c g →
    ∃ params', (HasModel params' c g ∧ (vs ≠ [] → WheelsCompleted params params')) ∧ bodeSpeeds bode str u y vs params fig = (params',
      .ok (addMany (inputNames u' ++ " to " ++ outputNames y')
        (vs.map fun v => (str v ++ " m/s", bode (sisoOf c g v u' y') bodeFrequencies)) fig))
  | [], params, fig, hp => ⟨params, ⟨hp, fun h => absurd rfl h⟩, rfl⟩
  | v :: vs, params, fig, hp => by
    obtain ⟨p1, h1, e1⟩ := plotBode_run bode hp v hu hy (str v ++ " m/s") fig
    obtain ⟨p2, h2, e2⟩ := bodeSpeeds_run bode str hu hy vs p1 (some _) h1.1
    refine ⟨p2, ⟨h2.1, fun _ => ?_⟩, by rw [bodeSpeeds, e1]; exact e2⟩
    by_cases hvs : vs = []
    · subst hvs
      have : p1 = p2 := congrArg Prod.fst e2
      exact this ▸ h1.2
    · exact wheelsCompleted_trans h1.2 (h2.2 hvs)

theorem bodeBikes_run (bode : Bode) (v : ℝ) {u y : ℤ} {u' : Fin 2}
    {y' : Fin 4} (hu : IndexOf 2 u u') (hy : IndexOf 4 y y') (cg : ℕ → Canon × ℝ) (name : ℕ → String) :
    ∀ (bs : List ℕ) (garage : Garage) (fig : Option BodeFigure),
    (∀ b ∈ bs, HasModel (garage b).2 (cg b).1 (cg b).2 ∧ (garage b).1 = name b) →
    ∃ garage' : Garage, (∀ b ∈ bs, HasModel (garage' b).2 (cg b).1 (cg b).2 ∧
        WheelsCompleted (garage b).2 (garage' b).2) ∧
      (∀ b, (garage' b).1 = (garage b).1 ∧ (b ∉ bs → garage' b = garage b)) ∧
      bodeBikes bode v u y bs garage fig = (garage',
      .ok (addMany (inputNames u' ++ " to " ++ outputNames y')
        (bs.map fun b => (name b, bode (sisoOf (cg b).1 (cg b).2 v u' y') bodeFrequencies)) fig))
  | [], garage, fig, hp => ⟨garage, by simp, by simp, rfl⟩
  | b :: bs, garage, fig, hp => by
    obtain ⟨p1, h1, e1⟩ := plotBode_run bode (hp b (by simp)).1 v hu hy (garage b).1 fig
    have hinv : ∀ b' ∈ b :: bs, HasModel (Function.update garage b ((garage b).1, p1) b').2
        (cg b').1 (cg b').2 ∧ (Function.update garage b ((garage b).1, p1) b').1 = name b' := by
      intro b' hb'
      by_cases h : b' = b
      · subst h
        simp only [Function.update_self]
        exact ⟨h1.1, (hp b' (by simp)).2⟩
      · rw [Function.update_of_ne h]
        exact hp b' hb'
    obtain ⟨g2, h2, h3, e2⟩ := bodeBikes_run bode v hu hy cg name bs
      (Function.update garage b ((garage b).1, p1)) (some _) fun b' hb' => hinv b' (by simp [hb'])
    refine ⟨g2, ?_, ?_, ?_⟩
    · intro b' hb'
      by_cases h : b' ∈ bs
      · refine ⟨(h2 b' h).1, ?_⟩
        have := (h2 b' h).2
        by_cases hbb : b' = b
        · subst hbb
          rw [Function.update_self] at this
          exact wheelsCompleted_trans h1.2 this
        · rwa [Function.update_of_ne hbb] at this
      · rw [(h3 b').2 h]
        have hbb : b' = b := by simpa [h] using hb'
        subst hbb
        rw [Function.update_self]
        exact h1
    · intro b'
      refine ⟨?_, fun hb' => ?_⟩
      · rw [(h3 b').1]
        by_cases h : b' = b
        · subst h; simp
        · rw [Function.update_of_ne h]
      · simp only [List.mem_cons, not_or] at hb'
        rw [(h3 b').2 hb'.2, Function.update_of_ne hb'.1]
    · rw [bodeBikes, e1]
      dsimp only
      rw [e2, (hp b (by simp)).2]
      rfl

theorem bodeFrequencies_ne : bodeFrequencies ≠ [] := by
  intro h
  have := congrArg List.length h
  simp [bodeFrequencies] at this

theorem bode_ne {bode : Bode} (hb : IsBode bode) (s : Siso) : (bode s bodeFrequencies).2 ≠ [] := by
  intro h
  have := hb.phases s bodeFrequencies
  rw [h] at this
  simp [bodeFrequencies] at this

/-- **C121.** `compare_bode_bicycles` adds one line for each bicycle, in the order given and
labelled with its name: magnitude and phase of its frequency response from the torque `u` to the
quantity `y`, at the frequencies `bodeFrequencies` (see `C121_frequencies`), the phase between
-180 and 180 degrees at the first; the title names input and output.  The phase lines that were
already in a given figure are aligned too.  The bicycles keep their names and models (in the
Benchmark sets the wheels' `Izz` are overwritten), and other objects do not change. -/
theorem C121_bicycles (bode : Bode) (hb : IsBode bode) (garage : Garage) (bikes : List ℕ) (v : ℝ)
    (cg : ℕ → Canon × ℝ) (hm : ∀ b ∈ bikes, HasModel (garage b).2 (cg b).1 (cg b).2) (u y : ℤ)
    (u' : Fin 2) (y' : Fin 4) (hu : IndexOf 2 u u') (hy : IndexOf 4 y y') (fig : Option BodeFigure)
    (hold : ∀ l ∈ phasesOf fig, l.ys ≠ []) (hne : bikes ≠ [] ∨ fig.isSome) :
    ∃ garage' out, compareBodeBicycles bode garage bikes v u y fig = (garage', .ok out) ∧
      (bikes ≠ [] → out.title =
        ["Roll Torque", "Steer Torque"].getD u' "" ++ " to " ++
          ["Roll Angle", "Steer Angle", "Roll Rate", "Steer Rate"].getD y' "") ∧
      Compared fig (bikes.map fun b => (garage b).1) (fun k mags phases => ∀ b, bikes[k]? = some b →
        ResponseLine (cg b).1 (cg b).2 v u' y' bodeFrequencies mags phases) out ∧
      (∀ b ∈ bikes, HasModel (garage' b).2 (cg b).1 (cg b).2 ∧
        WheelsCompleted (garage b).2 (garage' b).2) ∧
      ∀ b, (garage' b).1 = (garage b).1 ∧ (b ∉ bikes → garage' b = garage b) := by
  obtain ⟨garage', h1, h2, h3⟩ := bodeBikes_run bode v hu hy cg (fun b => (garage b).1) bikes garage fig
    fun b hb' => ⟨hm b hb', rfl⟩
  obtain ⟨out, h4, h5, h6⟩ := alignFigure_run (inputNames u' ++ " to " ++ outputNames y')
    (bikes.map fun b => ((garage b).1, bode (sisoOf (cg b).1 (cg b).2 v u' y') bodeFrequencies)) fig
    (by simpa using hne) hold
    (by
      intro it hit
      obtain ⟨b, _, rfl⟩ := List.mem_map.1 hit
      exact bode_ne hb _)
    (fun k mags phases => ∀ b, bikes[k]? = some b →
        ResponseLine (cg b).1 (cg b).2 v u' y' bodeFrequencies mags phases)
    (by
      intro k it hit ph hph b hbk
      simp only [List.getElem?_map, hbk, Option.map_some, Option.some.injEq] at hit
      subst hit
      exact responseLine_aligned (responseLine_of_isBode hb (hm b (List.mem_of_getElem? hbk)) v u' y' _) hph)
  refine ⟨garage', out, by rw [compareBodeBicycles, h3]; simp only [h4], ?_, ?_, h1, h2⟩
  · intro hbk
    rw [h5 (by simpa using hbk)]
    fin_cases u' <;> fin_cases y' <;> rfl
  · simpa [List.map_map, Function.comp_def] using h6

/-- **C121.** The same for `compare_bode_speeds`: one line for each speed, labelled with the speed
as text and its unit. -/
theorem C121_speeds (bode : Bode) (hb : IsBode bode) (str : ℝ → String) (params : Dict (Dict ℝ))
    (c : Canon) (g : ℝ) (hm : HasModel params c g) (speeds : List ℝ) (u y : ℤ)
    (u' : Fin 2) (y' : Fin 4) (hu : IndexOf 2 u u') (hy : IndexOf 4 y y') (fig : Option BodeFigure)
    (hold : ∀ l ∈ phasesOf fig, l.ys ≠ []) (hne : speeds ≠ [] ∨ fig.isSome) :
    ∃ params' out, compareBodeSpeeds bode str params speeds u y fig = (params', .ok out) ∧
      (speeds ≠ [] → out.title =
        ["Roll Torque", "Steer Torque"].getD u' "" ++ " to " ++
          ["Roll Angle", "Steer Angle", "Roll Rate", "Steer Rate"].getD y' "") ∧
      Compared fig (speeds.map fun v => str v ++ " m/s") (fun k mags phases => ∀ v, speeds[k]? = some v →
        ResponseLine c g v u' y' bodeFrequencies mags phases) out ∧
      HasModel params' c g ∧ (speeds ≠ [] → WheelsCompleted params params') := by
  obtain ⟨params', h1, h3⟩ := bodeSpeeds_run bode str hu hy speeds params fig hm
  obtain ⟨out, h4, h5, h6⟩ := alignFigure_run (inputNames u' ++ " to " ++ outputNames y')
    (speeds.map fun v => (str v ++ " m/s", bode (sisoOf c g v u' y') bodeFrequencies)) fig
    (by simpa using hne) hold
    (by
      intro it hit
      obtain ⟨b, _, rfl⟩ := List.mem_map.1 hit
      exact bode_ne hb _)
    (fun k mags phases => ∀ v, speeds[k]? = some v →
        ResponseLine c g v u' y' bodeFrequencies mags phases)
    (by
      intro k it hit ph hph b hbk
      simp only [List.getElem?_map, hbk, Option.map_some, Option.some.injEq] at hit
      subst hit
      exact responseLine_aligned (responseLine_of_isBode hb hm b u' y' _) hph)
  refine ⟨params', out, by rw [compareBodeSpeeds, h3]; simp only [h4], ?_, ?_, h1⟩
  · intro hbk
    rw [h5 (by simpa using hbk)]
    fin_cases u' <;> fin_cases y' <;> rfl
  · simpa [List.map_map, Function.comp_def] using h6

/-- **C121.** The frequencies: a thousand, from 1 to 100 rad/s, with a constant ratio. -/
theorem C121_frequencies : bodeFrequencies.length = 1000 ∧ bodeFrequencies[0]? = some 1 ∧
    bodeFrequencies[999]? = some 100 ∧ ∀ (i : ℕ) w w', bodeFrequencies[i]? = some w →
      bodeFrequencies[i + 1]? = some w' → w' = w * (10 : ℝ) ^ ((2 : ℝ) / 999) := by
  refine ⟨by simp [bodeFrequencies], by simp [bodeFrequencies], ?_, ?_⟩
  · have : (10 : ℝ) ^ (2 * ((999 : ℕ) : ℝ) / 999) = 100 := by
      have : 2 * ((999 : ℕ) : ℝ) / 999 = ((2 : ℕ) : ℝ) := by norm_num
      rw [this, Real.rpow_natCast]; norm_num
    simp only [bodeFrequencies, List.getElem?_map]
    rw [List.getElem?_range (by norm_num)]
    simp only [Option.map_some, this]
  · intro i w w' h1 h2
    simp only [bodeFrequencies, List.getElem?_map, Option.map_eq_some_iff] at h1 h2
    obtain ⟨a, ha, rfl⟩ := h1
    obtain ⟨b, hb, rfl⟩ := h2
    have e1 : a = i := by
      have := (List.getElem?_eq_some_iff.1 ha).2; simpa using this.symm
    have e2 : b = i + 1 := by
      have := (List.getElem?_eq_some_iff.1 hb).2; simpa using this.symm
    subst e1 e2
    have e : 2 * ((a + 1 : ℕ) : ℝ) / 999 = 2 * (a : ℝ) / 999 + 2 / 999 := by push_cast; ring
    rw [← Real.rpow_add (by norm_num), e]

/-- **C121.** Without bicycles (or speeds) and without a figure the comparison raises
`AttributeError`; an index that is out of range makes it raise `IndexError`. -/
theorem C121_failures (bode : Bode) (str : ℝ → String) (garage : Garage) (params : Dict (Dict ℝ))
    (v : ℝ) (u y : ℤ) :
    (compareBodeBicycles bode garage [] v u y none).2 = .error .attributeError ∧
    (compareBodeSpeeds bode str params [] u y none).2 = .error .attributeError ∧
    ∀ (b : ℕ) (bikes : List ℕ) (vs : List ℝ) (fig : Option BodeFigure) (c : Canon) (g : ℝ),
      ((∀ k, ¬ IndexOf 2 u k) ∨ ∀ k, ¬ IndexOf 4 y k) →
      (HasModel (garage b).2 c g →
        (compareBodeBicycles bode garage (b :: bikes) v u y fig).2 = .error .indexError) ∧
      (HasModel params c g →
        (compareBodeSpeeds bode str params (v :: vs) u y fig).2 = .error .indexError) := by
  refine ⟨rfl, rfl, fun b bikes vs fig c g h => ?_⟩
  have gen : ∀ (params : Dict (Dict ℝ)) (label : String), HasModel params c g →
      ∃ p', plotBode bode params v u y label fig = (p', .error .indexError) := by
    intro params label hp
    obtain ⟨ab, h1, h2⟩ := hasModel_after hp v
    unfold plotBode
    rcases hh : bikeStateSpace params v .yes with ⟨p', r⟩
    rw [hh] at h1
    dsimp only at h1
    subst h1
    refine ⟨p', ?_⟩
    dsimp only
    rcases h with h | h
    · rw [pyIndex_error h]; rfl
    · rw [pyIndex_error h]
      by_cases hu : ∃ k, IndexOf 2 u k
      · obtain ⟨k, hk⟩ := hu
        rw [pyIndex_ok hk]; rfl
      · rw [pyIndex_error (not_exists.1 hu)]; rfl
  constructor
  · intro hp
    obtain ⟨p', e⟩ := gen _ (garage b).1 hp
    simp only [compareBodeBicycles, bodeBikes, e]
  · intro hp
    obtain ⟨p', e⟩ := gen _ (str v ++ " m/s") hp
    simp only [compareBodeSpeeds, bodeSpeeds, e]

/-- **C121.** Comparing again in the same figure leaves a line alone whose first phase is strictly
between -180 and 180 degrees, but flips one that begins at exactly 180 to -180 and back. -/
theorem C121_again (y : ℝ) (ys : List ℝ) :
    (|y| < 180 → alignPhase (y :: ys) = .ok (y :: ys)) ∧
    alignPhase (180 :: ys) = .ok (-180 :: ys.map fun p => p - 360) ∧
    alignPhase (-180 :: ys) = .ok (180 :: ys.map fun p => p + 360) := by
  refine ⟨fun h => ?_, ?_, ?_⟩
  · have : ⌊|y / 180|⌋ = 0 := by
      rw [Int.floor_eq_iff, abs_div]
      have : |(180 : ℝ)| = 180 := abs_of_pos (by norm_num)
      rw [this]
      constructor
      · simp only [Int.cast_zero]; positivity
      · rw [Int.cast_zero, zero_add, div_lt_one (by norm_num)]; exact h
    simp [alignPhase, this]
  · have h1 : ⌈(((1 : ℤ) : ℝ)) / 2⌉ = 1 := by rw [Int.ceil_eq_iff]; norm_num
    have h2 : ⌊|(180 : ℝ) / 180|⌋ = 1 := by norm_num
    simp only [alignPhase, h2, h1, Real.sign_of_pos (by norm_num : (0 : ℝ) < 180)]
    norm_num
  · have h1 : ⌈(((1 : ℤ) : ℝ)) / 2⌉ = 1 := by rw [Int.ceil_eq_iff]; norm_num
    have h2 : ⌊|(-180 : ℝ) / 180|⌋ = 1 := by norm_num
    simp only [alignPhase, h2, h1, Real.sign_of_neg (by norm_num : (-180 : ℝ) < 0)]
    norm_num

/-- The hypotheses of C121 are met by two references to the same bicycle, with negative indices
(steer torque to steer rate). -/
theorem example_compare_bode : ∃ (bode : Bode) (garage : Garage) (cg : ℕ → Canon × ℝ),
    IsBode bode ∧ (∀ b ∈ [0, 0], HasModel (garage b).2 (cg b).1 (cg b).2) ∧
    IndexOf 2 (-1) 1 ∧ IndexOf 4 (-1) 3 ∧ ∀ k, ¬ IndexOf 4 4 k := by
  obtain ⟨bode, hb⟩ := example_isBode
  refine ⟨bode, fun _ => ("Browser", [("Benchmark", twoRangesDict)]), fun _ => (_, _), hb,
    fun b _ => twoRanges_hasModel, Or.inr rfl, Or.inr rfl, ?_⟩
  intro k
  have := k.isLt
  simp only [IndexOf, not_or]
  omega

end BP
