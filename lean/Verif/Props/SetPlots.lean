import Verif.Props.SetGeometry
import Verif.Model.SetPlots

/-!
# C117: the plots of the parameter sets
-/

set_option linter.unusedSimpArgs false

namespace BP

open Real Matrix Spec

/-! ## The axes -/

/-- An axes with the drawing conventions of the bicycle: z points down, equal scales, both axes
labelled. -/
def Spec.BicycleView (ax : Axes) : Prop :=
  ax.inverted = true ∧ ax.equalAspect = true ∧ ax.xlabel = "$x$ [m]" ∧ ax.ylabel = "$z$ [m]"

theorem finalizePlot_eq (ax : Axes) :
    finalizePlot ax = ⟨ax.artists, true, true, "$x$ [m]", "$z$ [m]"⟩ := by
  unfold finalizePlot invertYaxis
  cases h : ax.inverted
  · simp
  · simp [h]

theorem finalize_add_finalize (ax : Axes) (l : List Artist) :
    finalizePlot ((finalizePlot ax).add l) = finalizePlot (ax.add l) := by
  simp [finalizePlot_eq, Axes.add]

theorem add_add (ax : Axes) (l m : List Artist) : (ax.add l).add m = ax.add (l ++ m) := by
  simp [Axes.add]

/-- What every method leaves true. -/
structure Spec.Step (ax ax' : Axes) : Prop where
  kept : ax.artists <+: ax'.artists
  view : BicycleView ax → BicycleView ax'
  down : ax.inverted = true → ax'.inverted = true

theorem Spec.Step.refl (ax : Axes) : Step ax ax := ⟨List.prefix_rfl, id, id⟩

theorem Spec.Step.trans {a b c : Axes} (h : Step a b) (h' : Step b c) : Step a c :=
  ⟨h.kept.trans h'.kept, fun x => h'.view (h.view x), fun x => h'.down (h.down x)⟩

theorem step_finalize (ax : Axes) (l : List Artist) : Step ax (finalizePlot (ax.add l)) := by
  rw [finalizePlot_eq]
  exact ⟨⟨l, rfl⟩, fun _ => ⟨rfl, rfl, rfl, rfl⟩, fun _ => rfl⟩

/-- A method: it keeps what was drawn, and a successful call gives the bicycle view. -/
structure Good (f : Axes → Except PyErr Unit × Axes) : Prop where
  step : ∀ ax, Step ax (f ax).2
  view : ∀ ax, (f ax).1 = .ok () → BicycleView (f ax).2

theorem good_draw (l : Except PyErr (List Artist)) : Good (drawAndFinalize l) := by
  constructor
  · intro ax
    cases l with
    | error e => exact .refl ax
    | ok l => exact step_finalize ax l
  · intro ax h
    cases l with
    | error e => cases h
    | ok l => simp [drawAndFinalize, finalizePlot_eq, BicycleView]

theorem good_bodies (f : String → Except PyErr (List Artist)) (bs : List String) :
    Good (drawBodies f bs) := by
  induction bs with
  | nil =>
    exact ⟨fun ax => by simpa [drawBodies, Axes.add] using step_finalize ax [],
      fun ax _ => by simp [drawBodies, finalizePlot_eq, BicycleView]⟩
  | cons b bs ih =>
    have hb := good_draw (f b)
    constructor
    · intro ax
      have hs := hb.step ax
      unfold drawBodies
      match drawAndFinalize (f b) ax, hs with
      | (.error e, ax'), hs => exact hs
      | (.ok (), ax'), hs => exact hs.trans (ih.step ax')
    · intro ax h
      unfold drawBodies at h ⊢
      match drawAndFinalize (f b) ax, h with
      | (.error e, ax'), h => cases h
      | (.ok (), ax'), h => exact ih.view ax' h

theorem good_andThen {f g : Axes → Except PyErr Unit × Axes} (hf : Good f) (hg : Good g) :
    Good (andThen f g) := by
  constructor
  · intro ax
    have hs := hf.step ax
    unfold andThen
    match f ax, hs with
    | (.error e, ax'), hs => exact hs
    | (.ok (), ax'), hs => exact hs.trans (hg.step ax')
  · intro ax h
    unfold andThen at h ⊢
    match f ax, h with
    | (.error e, ax'), h => cases h
    | (.ok (), ax'), h => exact hg.view ax' h

theorem good_plotCall (eig : Matrix (Fin 2) (Fin 2) ℝ → (Fin 2 → ℝ) × Matrix (Fin 2) (Fin 2) ℝ)
    (kind : SetKind) (p : Dict ℝ) (colors : Dict String) (c : PlotCall) :
    Good (plotCall eig kind p colors c) := by
  unfold plotCall
  split
  · exact ⟨fun ax => .refl ax, fun ax h => by cases h⟩
  · cases c with
    | geometry s => exact good_draw _
    | personDiamond s => exact good_draw _
    | bodyMassCenter b => exact good_draw _
    | massCenters bs => exact good_bodies _ _
    | bodyRadiiOfGyration b => exact good_draw _
    | radiiOfGyration bs => exact good_bodies _ _
    | bodyEllipsoid b => exact good_draw _
    | ellipsoids bs => exact good_bodies _ _
    | all =>
      have hfin : Good fun ax => (.ok (), finalizePlot ax) :=
        ⟨fun ax => by simpa [Axes.add] using step_finalize ax [],
          fun ax _ => by simp [finalizePlot_eq, BicycleView]⟩
      have h1 := good_bodies (radiiArtists eig kind p colors) kind.bodyLabels
      have h2 := good_bodies (ellipsoidArtists eig kind p colors) kind.bodyLabels
      have h3 := good_draw (diamondArtists kind p colors false)
      have h4 := good_draw (geometryArtists p true)
      have h5 := good_bodies (massCenterArtists kind p colors) kind.bodyLabels
      dsimp only
      split
      · exact good_andThen h1 (good_andThen h2 (good_andThen h3 (good_andThen h4 (good_andThen h5 hfin))))
      · exact good_andThen h1 (good_andThen h2 (good_andThen h4 h5))

theorem step_session (eig : Matrix (Fin 2) (Fin 2) ℝ → (Fin 2 → ℝ) × Matrix (Fin 2) (Fin 2) ℝ)
    (kind : SetKind) (p : Dict ℝ) (colors : Dict String) (calls : List PlotCall) (ax : Axes) :
    Step ax (plotSession eig kind p colors ax calls) := by
  induction calls generalizing ax with
  | nil => exact .refl ax
  | cons c cs ih => exact ((good_plotCall eig kind p colors c).step ax).trans (ih _)

/-- **C117.** Any number of plotting calls on the same axes, in any order, failing or not, keep
everything already drawn, and never turn an axes whose z points down back up. -/
theorem C117_session_keeps (eig : Matrix (Fin 2) (Fin 2) ℝ → (Fin 2 → ℝ) × Matrix (Fin 2) (Fin 2) ℝ)
    (kind : SetKind) (p : Dict ℝ) (colors : Dict String) (calls : List PlotCall) (ax : Axes) :
    ax.artists <+: (plotSession eig kind p colors ax calls).artists ∧
    (ax.inverted = true → (plotSession eig kind p colors ax calls).inverted = true) :=
  ⟨(step_session eig kind p colors calls ax).kept, (step_session eig kind p colors calls ax).down⟩

/-- **C117.** From the first call that succeeds on, whatever the axes were before and whatever is
called afterwards, z points down, the scales are equal and the axes are labelled. -/
theorem C117_session_view (eig : Matrix (Fin 2) (Fin 2) ℝ → (Fin 2 → ℝ) × Matrix (Fin 2) (Fin 2) ℝ)
    (kind : SetKind) (p : Dict ℝ) (colors : Dict String) (before after : List PlotCall) (c : PlotCall)
    (ax : Axes)
    (h : (plotCall eig kind p colors c (plotSession eig kind p colors ax before)).1 = .ok ()) :
    BicycleView (plotSession eig kind p colors ax (before ++ c :: after)) := by
  have h1 := (good_plotCall eig kind p colors c).view _ h
  have h2 := (step_session eig kind p colors after
    (plotCall eig kind p colors c (plotSession eig kind p colors ax before)).2).view h1
  simpa [plotSession, List.foldl_append] using h2

/-! ## Colours -/

theorem bodyColorsFrom_ok (cycle : List String) (bs : List String) (i : ℕ)
    (h : i + bs.length ≤ cycle.length) :
    bodyColorsFrom cycle i bs = .ok (bs.zip (cycle.drop i)) := by
  induction bs generalizing i with
  | nil => simp [bodyColorsFrom]
  | cons b bs ih =>
    simp only [List.length_cons] at h
    have hi : i < cycle.length := by omega
    unfold bodyColorsFrom
    rw [List.getElem?_eq_getElem hi]
    simp only
    rw [ih (i + 1) (by omega), List.drop_eq_getElem_cons hi]
    rfl

theorem bodyColorsFrom_error (cycle : List String) (bs : List String) (i : ℕ) (hi : i ≤ cycle.length)
    (h : cycle.length < i + bs.length) : bodyColorsFrom cycle i bs = .error .indexError := by
  induction bs generalizing i with
  | nil => simp at h; omega
  | cons b bs ih =>
    simp only [List.length_cons] at h
    unfold bodyColorsFrom
    rcases Nat.lt_or_ge i cycle.length with hlt | hge
    · rw [List.getElem?_eq_getElem hlt]
      simp only
      rw [ih (i + 1) (by omega) (by omega)]
      rfl
    · rw [List.getElem?_eq_none hge]

/-- The colour of a body: the colour of the current matplotlib style at the place of the body among
the labels of the class. -/
def Spec.colorOf (cycle : List String) (kind : SetKind) (body : String) : String :=
  cycle.getD (kind.bodyLabels.idxOf body) ""

theorem zip_find? (bs cs : List String) (h : bs.length ≤ cs.length) (b : String) (hb : b ∈ bs) :
    Dict.find? (bs.zip cs) b = some (cs.getD (bs.idxOf b) "") := by
  induction bs generalizing cs with
  | nil => cases hb
  | cons a bs ih =>
    cases cs with
    | nil => simp at h
    | cons c cs =>
      simp only [List.zip_cons_cons, Dict.find?_cons]
      by_cases hab : a = b
      · subst hab; simp
      · have hm : b ∈ bs := by
          rcases List.mem_cons.1 hb with h' | h'
          · exact absurd h'.symm hab
          · exact h'
        rw [if_neg hab, ih cs (by simpa using h) hm, List.idxOf_cons_ne _ hab]
        simp

/-- **C117.** A set can be created exactly if the style has a colour for every body; with fewer colours
the constructor raises an IndexError.  Each body gets the colour at its own place. -/
theorem C117_colors (cycle : List String) (kind : SetKind) :
    (kind.bodyLabels.length ≤ cycle.length → ∃ colors, bodyColors cycle kind = .ok colors ∧
      Dict.keys colors = kind.bodyLabels ∧
      ∀ b ∈ kind.bodyLabels, colors.find? b = some (colorOf cycle kind b)) ∧
    (cycle.length < kind.bodyLabels.length → bodyColors cycle kind = .error .indexError) := by
  constructor
  · intro h
    refine ⟨kind.bodyLabels.zip cycle, ?_, ?_, ?_⟩
    · have := bodyColorsFrom_ok cycle kind.bodyLabels 0 (by simpa using h)
      simpa [bodyColors] using this
    · simpa [Dict.keys] using List.map_fst_zip h
    · intro b hb
      exact zip_find? _ _ h b hb
  · intro h
    exact bodyColorsFrom_error cycle _ 0 (Nat.zero_le _) (by simpa using h)

/-- **C117.** Two bodies share a colour exactly if the style repeats it: with distinct colours the
bodies can be told apart. -/
theorem C117_colors_distinct (cycle : List String) (kind : SetKind)
    (h : kind.bodyLabels.length ≤ cycle.length) (hd : (cycle.take kind.bodyLabels.length).Nodup)
    (a b : String) (ha : a ∈ kind.bodyLabels) (hb : b ∈ kind.bodyLabels)
    (hc : colorOf cycle kind a = colorOf cycle kind b) : a = b := by
  have ia := List.idxOf_lt_length_of_mem ha
  have ib := List.idxOf_lt_length_of_mem hb
  unfold colorOf at hc
  simp only [List.getD, List.getElem?_eq_getElem (lt_of_lt_of_le ia h),
    List.getElem?_eq_getElem (lt_of_lt_of_le ib h), Option.getD_some] at hc
  have e : (cycle.take kind.bodyLabels.length)[kind.bodyLabels.idxOf a]'(by simp; omega) =
      (cycle.take kind.bodyLabels.length)[kind.bodyLabels.idxOf b]'(by simp; omega) := by
    simpa using hc
  have := (List.Nodup.getElem_inj_iff hd).1 e
  rw [← List.getElem_idxOf ia, ← List.getElem_idxOf ib]
  simp only [this]

/-- non-vacuity: matplotlib's default style has ten distinct colours, enough for every class -/
example (kind : SetKind) : kind.bodyLabels.length ≤ 10 ∧
    (["#1f77b4", "#ff7f0e", "#2ca02c", "#d62728", "#9467bd", "#8c564b", "#e377c2", "#7f7f7f",
      "#bcbd22", "#17becf"].take kind.bodyLabels.length).Nodup := by
  cases kind <;> decide

/-! ## What is drawn -/

/-- The place of a body's mass centre in the drawing plane. -/
def Spec.at2 (p : Dict ℝ) (body : String) : ℝ × ℝ := (bodyCenter p body 0, bodyCenter p body 2)

/-- The size of the mass centre symbols: a tenth of the wheelbase, or for the sets with a person a
thirtieth of the larger of the wheelbase and the person's length. -/
noncomputable def Spec.symbolSize (kind : SetKind) (p : Dict ℝ) : ℝ :=
  if kind = .moore2019 then max (p.getD "w" 0) (p.getD "lP" 0) / 30 else p.getD "w" 0 / 10

/-- The symbol of a mass centre: two opposite quadrants of a disc filled in the body's colour, its
outline, and the body's label beside it. -/
noncomputable def Spec.massCenterMark (cycle : List String) (kind : SetKind) (p : Dict ℝ) (b : String) :
    List Artist :=
  [.wedge (at2 p b) (symbolSize kind p) 0 90 (colorOf cycle kind b),
   .wedge (at2 p b) (symbolSize kind p) 180 270 (colorOf cycle kind b),
   .circle (at2 p b) (symbolSize kind p) "",
   .text ((at2 p b).1 + symbolSize kind p, (at2 p b).2 + symbolSize kind p) b]

/-- The principal radii of gyration and the angle of a body.  For the sets that store them, the stored
ones, with the wheels symmetric about their axle; for the others, those of the inertia tensor,
whenever the mass is positive, the moments are not negative and numpy solves the eigenvalue
problem. -/
def Spec.DescribesInertia (eig : Matrix (Fin 2) (Fin 2) ℝ → (Fin 2 → ℝ) × Matrix (Fin 2) (Fin 2) ℝ)
    (kind : SetKind) (p : Dict ℝ) (b : String) (kaa kbb kyy alpha : ℝ) : Prop :=
  if kind = .moore2019 then
    kyy = p.getD ("k" ++ b ++ "yy") 0 ∧ kaa = p.getD ("k" ++ b ++ "aa") 0 ∧
    (if b = "R" ∨ b = "F" then kbb = kaa ∧ alpha = 0
      else kbb = p.getD ("k" ++ b ++ "bb") 0 ∧ alpha = p.getD ("alpha" ++ b) 0)
  else
    IsEig (xzPlane (bodyTensor p b)) (eig (xzPlane (bodyTensor p b))).1 (eig (xzPlane (bodyTensor p b))).2 →
    0 < p.getD ("m" ++ b) 0 → 0 ≤ bodyTensor p b 1 1 →
    (∀ j, 0 ≤ (eig (xzPlane (bodyTensor p b))).1 j) →
    PrincipalTensor (bodyTensor p b) (p.getD ("m" ++ b) 0) kaa kyy kbb alpha ∧ kbb ≤ kaa

theorem bodyXZ_ok (kind : SetKind) (p : Dict ℝ) (hl : Locates kind) (hv : ValidNums kind p)
    (b : String) (hb : b ∈ kind.bodyLabels) : bodyXZ kind p b = .ok (at2 p b) := by
  have h := C64_body_center kind p hl hv b hb
  unfold formMassCenterVector at h
  unfold bodyXZ
  cases hx : extended kind p with
  | error e => rw [hx] at h; cases h
  | ok q =>
    rw [hx] at h
    simp only at h ⊢
    cases h1 : q.get ("x" ++ b) with
    | error e => rw [h1] at h; cases h
    | ok x =>
      cases h2 : q.get ("y" ++ b) with
      | error e => rw [h1, h2] at h; cases h
      | ok y =>
        cases h3 : q.get ("z" ++ b) with
        | error e => rw [h1, h2, h3] at h; cases h
        | ok z =>
          rw [h1, h2, h3] at h
          simp only [Except.bind, Except.map, Except.ok.injEq] at h ⊢
          unfold at2
          rw [← h]
          simp

theorem symbolRadius_ok (kind : SetKind) (p : Dict ℝ) (hl : Locates kind) (hv : ValidNums kind p) :
    symbolRadius kind p = .ok (symbolSize kind p) := by
  have hf : ∀ k, k ∈ kind.parStrings.keys → p.get k = .ok (p.getD k 0) := fun k hk => by
    unfold Dict.get; rw [find?_eq_getD (hv k hk)]
  rcases hl with rfl | rfl | rfl
  · simp [symbolRadius, hf "w" (by decide), symbolSize, Except.map]
  · simp [symbolRadius, hf "w" (by decide), symbolSize, Except.map]
  · simp [symbolRadius, hf "w" (by decide), hf "lP" (by decide), symbolSize, Except.map, Except.bind]

theorem colors_get {cycle : List String} {kind : SetKind} {colors : Dict String}
    (hc : bodyColors cycle kind = .ok colors) (b : String) (hb : b ∈ kind.bodyLabels) :
    colors.get b = .ok (colorOf cycle kind b) := by
  rcases Nat.lt_or_ge cycle.length kind.bodyLabels.length with h | h
  · rw [(C117_colors cycle kind).2 h] at hc; cases hc
  · obtain ⟨d, hd, _, hf⟩ := (C117_colors cycle kind).1 h
    rw [hd] at hc
    cases hc
    unfold Dict.get
    rw [hf b hb]

theorem colors_unknown {cycle : List String} {kind : SetKind} {colors : Dict String}
    (hc : bodyColors cycle kind = .ok colors) (b : String) (hb : b ∉ kind.bodyLabels) :
    colors.get b = .error (.keyError b) := by
  rcases Nat.lt_or_ge cycle.length kind.bodyLabels.length with h | h
  · rw [(C117_colors cycle kind).2 h] at hc; cases hc
  · obtain ⟨d, hd, hk, _⟩ := (C117_colors cycle kind).1 h
    rw [hd] at hc
    cases hc
    unfold Dict.get
    rw [(Dict.find?_eq_none_iff _ _).2 (by rw [hk]; exact hb)]

theorem massCenterArtists_ok {cycle : List String} {kind : SetKind} {p : Dict ℝ} {colors : Dict String}
    (hl : Locates kind) (hv : ValidNums kind p) (hc : bodyColors cycle kind = .ok colors)
    (b : String) (hb : b ∈ kind.bodyLabels) :
    massCenterArtists kind p colors b = .ok (massCenterMark cycle kind p b) := by
  unfold massCenterArtists
  rw [bodyXZ_ok kind p hl hv b hb, symbolRadius_ok kind p hl hv, colors_get hc b hb]
  rfl

theorem bodyRadii_ok (eig : Matrix (Fin 2) (Fin 2) ℝ → (Fin 2 → ℝ) × Matrix (Fin 2) (Fin 2) ℝ)
    (kind : SetKind) (p : Dict ℝ) (hl : Locates kind) (hv : ValidNums kind p)
    (b : String) (hb : b ∈ kind.bodyLabels) :
    ∃ kaa kbb kyy alpha, bodyRadii eig kind p b = .ok (kaa, kbb, kyy, alpha) ∧
      DescribesInertia eig kind p b kaa kbb kyy alpha := by
  obtain ⟨e, he, hx, hn⟩ := extended_ok kind p hl hv
  have hf : ∀ k, k ∈ kind.parStrings.keys → p.find? k = some (p.getD k 0) := fun k hk =>
    find?_eq_getD (hv k hk)
  have hreq : ∀ L : List String, (∀ k ∈ L, k ∈ kind.parStrings.keys) → Dict.require p L = .ok () := by
    intro L hL
    exact (Dict.require_ok_iff p L).2 fun k hk => hv k (hL k hk)
  unfold bodyRadii
  rw [hx]
  simp only
  have meij : ∀ m yy, (kind = .meijaard ∨ kind = .feedback) →
      (p.update e).get ("m" ++ b) = .ok m → (p.update e).get ("I" ++ b ++ "yy") = .ok yy →
      m = p.getD ("m" ++ b) 0 → yy = bodyTensor p b 1 1 →
      ∃ kaa kbb kyy alpha, ((formInertiaTensor kind p b).bind fun I =>
        ((p.update e).get ("m" ++ b)).bind fun m => ((p.update e).get ("I" ++ b ++ "yy")).map fun Iyy =>
          planarRadii (eig (xzPlane I)).1 (eig (xzPlane I)).2 m Iyy) = .ok (kaa, kbb, kyy, alpha) ∧
        DescribesInertia eig kind p b kaa kbb kyy alpha := by
    intro m yy hk h1 h2 hm hy
    have hI := C64_inertia_tensor kind p hk hv b hb
    rw [hI, h1, h2]
    refine ⟨_, _, _, _, rfl, ?_⟩
    unfold DescribesInertia
    rw [if_neg (by rcases hk with rfl | rfl <;> decide)]
    intro g1 g2 g3 g4
    refine C88_radii_describe_tensor kind p b _ _ _ hI g1 g2 g3 g4 _ _ _ _ ?_
    rw [hm, hy]
    rfl
  rcases hl with rfl | rfl | rfl
  all_goals
    simp only [derived] at he
    first
      | rw [hreq ["IFxx", "IRxx", "w", "rF", "rR"] (by decide)] at he
      | rw [hreq ["w", "rR", "rF", "kRaa", "kFaa"] (by decide)] at he
    simp only [Except.ok.injEq] at he
    subst he
    simp only [SetKind.bodyLabels, List.mem_cons, List.not_mem_nil, or_false] at hb
    rcases hb with rfl | rfl | rfl | rfl | rfl
  · exact meij _ _ (by simp) (extended_get p _ hn _ (p.getD "mB" 0) (by simp [Dict.find?, hf "mB" (by decide)]))
      (extended_get p _ hn _ (p.getD "IByy" 0) (by simp [Dict.find?, hf "IByy" (by decide)])) (by simp)
      (by simp [bodyTensor])
  · exact meij _ _ (by simp) (extended_get p _ hn _ (p.getD "mF" 0) (by simp [Dict.find?, hf "mF" (by decide)]))
      (extended_get p _ hn _ (p.getD "IFyy" 0) (by simp [Dict.find?, hf "IFyy" (by decide)])) (by simp)
      (by simp [bodyTensor])
  · exact meij _ _ (by simp) (extended_get p _ hn _ (p.getD "mH" 0) (by simp [Dict.find?, hf "mH" (by decide)]))
      (extended_get p _ hn _ (p.getD "IHyy" 0) (by simp [Dict.find?, hf "IHyy" (by decide)])) (by simp)
      (by simp [bodyTensor])
  · exact meij _ _ (by simp) (extended_get p _ hn _ (p.getD "mR" 0) (by simp [Dict.find?, hf "mR" (by decide)]))
      (extended_get p _ hn _ (p.getD "IRyy" 0) (by simp [Dict.find?, hf "IRyy" (by decide)])) (by simp)
      (by simp [bodyTensor])
  · exact meij _ _ (by simp) (extended_get p _ hn _ (p.getD "mB" 0) (by simp [Dict.find?, hf "mB" (by decide)]))
      (extended_get p _ hn _ (p.getD "IByy" 0) (by simp [Dict.find?, hf "IByy" (by decide)])) (by simp)
      (by simp [bodyTensor])
  · exact meij _ _ (by simp) (extended_get p _ hn _ (p.getD "mF" 0) (by simp [Dict.find?, hf "mF" (by decide)]))
      (extended_get p _ hn _ (p.getD "IFyy" 0) (by simp [Dict.find?, hf "IFyy" (by decide)])) (by simp)
      (by simp [bodyTensor])
  · exact meij _ _ (by simp) (extended_get p _ hn _ (p.getD "mH" 0) (by simp [Dict.find?, hf "mH" (by decide)]))
      (extended_get p _ hn _ (p.getD "IHyy" 0) (by simp [Dict.find?, hf "IHyy" (by decide)])) (by simp)
      (by simp [bodyTensor])
  · exact meij _ _ (by simp) (extended_get p _ hn _ (p.getD "mR" 0) (by simp [Dict.find?, hf "mR" (by decide)]))
      (extended_get p _ hn _ (p.getD "IRyy" 0) (by simp [Dict.find?, hf "IRyy" (by decide)])) (by simp)
      (by simp [bodyTensor])
  · refine ⟨p.getD "kDaa" 0, p.getD "kDbb" 0, p.getD "kDyy" 0, p.getD "alphaD" 0, ?_, by simp [DescribesInertia]⟩
    rw [extended_get p _ hn _ (p.getD "kDyy" 0) (by simp [Dict.find?, hf "kDyy" (by decide)]),
      extended_get p _ hn _ (p.getD "kDaa" 0) (by simp [Dict.find?, hf "kDaa" (by decide)]),
      extended_get p _ hn _ (p.getD "kDbb" 0) (by simp [Dict.find?, hf "kDbb" (by decide)]),
      extended_get p _ hn _ (p.getD "alphaD" 0) (by simp [Dict.find?, hf "alphaD" (by decide)])]
    rfl
  · refine ⟨p.getD "kFaa" 0, p.getD "kFaa" 0, p.getD "kFyy" 0, 0, ?_, by simp [DescribesInertia]⟩
    rw [extended_get p _ hn _ (p.getD "kFyy" 0) (by simp [Dict.find?, hf "kFyy" (by decide)]),
      extended_get p _ hn _ (p.getD "kFaa" 0) (by simp [Dict.find?, hf "kFaa" (by decide)]),
      extended_get p _ hn _ (p.getD "kFaa" 0) (by simp [Dict.find?]),
      extended_get p _ hn _ 0 (by simp [Dict.find?])]
    rfl
  · refine ⟨p.getD "kHaa" 0, p.getD "kHbb" 0, p.getD "kHyy" 0, p.getD "alphaH" 0, ?_, by simp [DescribesInertia]⟩
    rw [extended_get p _ hn _ (p.getD "kHyy" 0) (by simp [Dict.find?, hf "kHyy" (by decide)]),
      extended_get p _ hn _ (p.getD "kHaa" 0) (by simp [Dict.find?, hf "kHaa" (by decide)]),
      extended_get p _ hn _ (p.getD "kHbb" 0) (by simp [Dict.find?, hf "kHbb" (by decide)]),
      extended_get p _ hn _ (p.getD "alphaH" 0) (by simp [Dict.find?, hf "alphaH" (by decide)])]
    rfl
  · refine ⟨p.getD "kPaa" 0, p.getD "kPbb" 0, p.getD "kPyy" 0, p.getD "alphaP" 0, ?_, by simp [DescribesInertia]⟩
    rw [extended_get p _ hn _ (p.getD "kPyy" 0) (by simp [Dict.find?, hf "kPyy" (by decide)]),
      extended_get p _ hn _ (p.getD "kPaa" 0) (by simp [Dict.find?, hf "kPaa" (by decide)]),
      extended_get p _ hn _ (p.getD "kPbb" 0) (by simp [Dict.find?, hf "kPbb" (by decide)]),
      extended_get p _ hn _ (p.getD "alphaP" 0) (by simp [Dict.find?, hf "alphaP" (by decide)])]
    rfl
  · refine ⟨p.getD "kRaa" 0, p.getD "kRaa" 0, p.getD "kRyy" 0, 0, ?_, by simp [DescribesInertia]⟩
    rw [extended_get p _ hn _ (p.getD "kRyy" 0) (by simp [Dict.find?, hf "kRyy" (by decide)]),
      extended_get p _ hn _ (p.getD "kRaa" 0) (by simp [Dict.find?, hf "kRaa" (by decide)]),
      extended_get p _ hn _ (p.getD "kRaa" 0) (by simp [Dict.find?]),
      extended_get p _ hn _ 0 (by simp [Dict.find?])]
    rfl

/-- How the radii of gyration are drawn: a circle of radius `kyy` about the mass centre, a line of half
length `kbb` along the principal axis at `alpha` and one of half length `kaa` across it. -/
noncomputable def Spec.radiiMark (cycle : List String) (kind : SetKind) (p : Dict ℝ)
    (k : ℝ × ℝ × ℝ × ℝ) (b : String) : List Artist :=
  let c := at2 p b
  [.circle c k.2.2.1 (colorOf cycle kind b),
   .line [(c.1 - k.2.1 * cos k.2.2.2, c.2 + k.2.1 * sin k.2.2.2),
     (c.1 + k.2.1 * cos k.2.2.2, c.2 - k.2.1 * sin k.2.2.2)] (colorOf cycle kind b),
   .line [(c.1 + k.1 * sin k.2.2.2, c.2 + k.1 * cos k.2.2.2),
     (c.1 - k.1 * sin k.2.2.2, c.2 - k.1 * cos k.2.2.2)] (colorOf cycle kind b)]

/-- How the inertia ellipsoid is drawn: an ellipse about the mass centre, turned by `-alpha`. -/
noncomputable def Spec.ellipsoidMark (cycle : List String) (kind : SetKind) (p : Dict ℝ)
    (k : ℝ × ℝ × ℝ × ℝ) (b : String) : List Artist :=
  [.ellipse ⟨(at2 p b).1, (at2 p b).2, √(5 / 2 * (k.2.2.1 ^ 2 + k.2.1 ^ 2 - k.1 ^ 2)),
    √(5 / 2 * (k.2.2.1 ^ 2 + k.1 ^ 2 - k.2.1 ^ 2)), -(k.2.2.2 * 180 / π)⟩ (colorOf cycle kind b)]

/-- How the bicycle is drawn: the ground, the wheels standing on it, the frame with its offsets, and
if asked for the steer axis. -/
noncomputable def Spec.geometryMark (p : Dict ℝ) (steer : Bool) : List Artist :=
  let v := fun k => p.getD k 0
  let pts := fundamentalGeometryPlotData (v "w") (v "c") (v "lam") (v "rR") (v "rF")
  [.hline 0 "black", .circle (0, -v "rR") (v "rR") "", .circle (v "w", -v "rF") (v "rF") "", .line pts "k"] ++
    if steer then [.line [(steerAxisLine pts).1, (steerAxisLine pts).2] "k"] else []

/-- How the person is drawn: a rhombus with diagonals `wP` and `lP` about the mass centre. -/
noncomputable def Spec.personMark (cycle : List String) (p : Dict ℝ) : List Artist :=
  let v := fun k => p.getD k 0
  [.line (personDiamond (v "xP") (v "zP") (v "wP") (v "lP") (v "alphaP")) (colorOf cycle .moore2019 "P")]

/-- The axes `ax` after drawing `l` with the conventions of the bicycle view. -/
def Spec.withDrawn (ax : Axes) (l : List Artist) : Axes :=
  ⟨ax.artists ++ l, true, true, "$x$ [m]", "$z$ [m]"⟩

theorem withDrawn_eq (ax : Axes) (l : List Artist) : finalizePlot (ax.add l) = withDrawn ax l := by
  rw [finalizePlot_eq]; rfl

theorem withDrawn_withDrawn (ax : Axes) (l m : List Artist) :
    withDrawn (withDrawn ax l) m = withDrawn ax (l ++ m) := by
  simp [withDrawn]

theorem drawBodies_ok (f : String → Except PyErr (List Artist)) (g : String → List Artist)
    (bs : List String) (h : ∀ b ∈ bs, f b = .ok (g b)) (ax : Axes) :
    drawBodies f bs ax = (.ok (), withDrawn ax (bs.flatMap g)) := by
  induction bs generalizing ax with
  | nil =>
    have := withDrawn_eq ax []
    simp only [Axes.add, List.append_nil] at this
    simp [drawBodies, this]
  | cons b bs ih =>
    unfold drawBodies
    rw [h b (by simp)]
    simp only [drawAndFinalize]
    rw [ih (fun c hc => h c (List.mem_cons_of_mem _ hc)), withDrawn_eq, withDrawn_withDrawn]
    simp

theorem drawBodies_error (f : String → Except PyErr (List Artist)) (g : String → List Artist)
    (pre post : List String) (b : String) (e : PyErr) (h : ∀ b ∈ pre, f b = .ok (g b)) (hb : f b = .error e)
    (ax : Axes) :
    (drawBodies f (pre ++ b :: post) ax).1 = .error e ∧
    (drawBodies f (pre ++ b :: post) ax).2.artists = ax.artists ++ pre.flatMap g := by
  induction pre generalizing ax with
  | nil => simp [drawBodies, hb, drawAndFinalize]
  | cons a pre ih =>
    simp only [List.cons_append]
    unfold drawBodies
    rw [h a (by simp)]
    simp only [drawAndFinalize]
    have := ih (fun c hc => h c (List.mem_cons_of_mem _ hc)) (finalizePlot (ax.add (g a)))
    refine ⟨this.1, this.2.trans ?_⟩
    rw [withDrawn_eq]
    simp [withDrawn]

theorem gyrationLines_spec (x z kaa kbb alpha : ℝ) : gyrationLines x z kaa kbb alpha =
    [((x - kbb * cos alpha, z + kbb * sin alpha), (x + kbb * cos alpha, z - kbb * sin alpha)),
     ((x + kaa * sin alpha, z + kaa * cos alpha), (x - kaa * sin alpha, z - kaa * cos alpha))] := by
  have hs : sin (-alpha - π / 2) = -cos alpha := by rw [Real.sin_sub_pi_div_two, Real.cos_neg]
  have hc : cos (-alpha - π / 2) = -sin alpha := by rw [Real.cos_sub_pi_div_two, Real.sin_neg]
  simp only [gyrationLines, hs, hc, Real.cos_neg, Real.sin_neg]
  simp only [mul_neg, sub_neg_eq_add, ← sub_eq_add_neg]

theorem geometryArtists_ok (kind : SetKind) (p : Dict ℝ) (hl : Locates kind) (hv : ValidNums kind p)
    (s : Bool) : geometryArtists p s = .ok (geometryMark p s) := by
  have hreq : ∀ L : List String, (∀ k ∈ L, k ∈ kind.parStrings.keys) → Dict.require p L = .ok () := by
    intro L hL
    exact (Dict.require_ok_iff p L).2 fun k hk => hv k (hL k hk)
  have h : Dict.require p ["rR", "w", "rF", "c", "lam"] = .ok () := by
    rcases hl with rfl | rfl | rfl <;> exact hreq _ (by decide)
  unfold geometryArtists geometryMark
  rw [h]
  cases s <;> rfl

theorem diamond_ok {cycle : List String} {p : Dict ℝ} {colors : Dict String}
    (hv : ValidNums .moore2019 p) (hc : bodyColors cycle .moore2019 = .ok colors) :
    diamondArtists .moore2019 p colors false = .ok (personMark cycle p) := by
  have h : Dict.require p ["wP", "alphaP", "lP", "xP", "zP"] = .ok () :=
    (Dict.require_ok_iff p _).2 fun k hk => hv k (by revert k; decide)
  unfold diamondArtists personMark
  rw [if_pos rfl, h, colors_get hc "P" (by decide)]
  rfl

theorem inertiaArtists_ok (eig : Matrix (Fin 2) (Fin 2) ℝ → (Fin 2 → ℝ) × Matrix (Fin 2) (Fin 2) ℝ)
    {cycle : List String} {kind : SetKind} {p : Dict ℝ} {colors : Dict String}
    (hl : Locates kind) (hv : ValidNums kind p) (hc : bodyColors cycle kind = .ok colors) :
    ∃ rad : String → ℝ × ℝ × ℝ × ℝ, ∀ b ∈ kind.bodyLabels,
      DescribesInertia eig kind p b (rad b).1 (rad b).2.1 (rad b).2.2.1 (rad b).2.2.2 ∧
      radiiArtists eig kind p colors b = .ok (radiiMark cycle kind p (rad b) b) ∧
      ellipsoidArtists eig kind p colors b = .ok (ellipsoidMark cycle kind p (rad b) b) := by
  classical
  have h := fun b hb => bodyRadii_ok eig kind p hl hv b hb
  have h' : ∀ b, ∃ k : ℝ × ℝ × ℝ × ℝ, b ∈ kind.bodyLabels →
      bodyRadii eig kind p b = .ok k ∧ DescribesInertia eig kind p b k.1 k.2.1 k.2.2.1 k.2.2.2 := by
    intro b
    by_cases hb : b ∈ kind.bodyLabels
    · obtain ⟨a, b', c, d, h1, h2⟩ := h b hb
      exact ⟨(a, b', c, d), fun _ => ⟨h1, h2⟩⟩
    · exact ⟨0, fun hb' => absurd hb' hb⟩
  choose rad hrad using h'
  refine ⟨rad, fun b hb => ⟨(hrad b hb).2, ?_, ?_⟩⟩
  · unfold radiiArtists
    rw [bodyXZ_ok kind p hl hv b hb, (hrad b hb).1, colors_get hc b hb]
    simp only [Except.bind, Except.map, gyrationLines_spec, radiiMark, List.map_cons, List.map_nil]
  · unfold ellipsoidArtists
    rw [bodyXZ_ok kind p hl hv b hb, (hrad b hb).1, colors_get hc b hb]
    simp only [Except.bind, Except.map, ellipsePatch, ellipsoidMark]
    congr 6 <;> ring_nf

/-- **C117.** `plot_mass_centers` of a valid set marks each body asked for once, in the order given, at
its mass centre, with its own colour and label, and draws nothing else; without an argument it marks
every body of the class. -/
theorem C117_mass_centers (eig : Matrix (Fin 2) (Fin 2) ℝ → (Fin 2 → ℝ) × Matrix (Fin 2) (Fin 2) ℝ)
    (cycle : List String) (kind : SetKind) (p : Dict ℝ) (colors : Dict String) (hl : Locates kind)
    (hv : ValidNums kind p) (hc : bodyColors cycle kind = .ok colors) (ax : Axes) :
    (∀ bodies : List String, (∀ b ∈ bodies, b ∈ kind.bodyLabels) →
      plotCall eig kind p colors (.massCenters (some bodies)) ax =
        (.ok (), withDrawn ax (bodies.flatMap (massCenterMark cycle kind p)))) ∧
    plotCall eig kind p colors (.massCenters none) ax =
      (.ok (), withDrawn ax (kind.bodyLabels.flatMap (massCenterMark cycle kind p))) ∧
    ∀ b ∈ kind.bodyLabels, plotCall eig kind p colors (.bodyMassCenter b) ax =
      (.ok (), withDrawn ax (massCenterMark cycle kind p b)) := by
  have hk : ¬(kind = .moore2012 ∨ kind = .riderLean) := by rcases hl with rfl | rfl | rfl <;> decide
  refine ⟨fun bodies hb => ?_, ?_, fun b hb => ?_⟩
  · simp only [plotCall, if_neg hk, Option.getD_some]
    exact drawBodies_ok _ _ _ (fun b h => massCenterArtists_ok hl hv hc b (hb b h)) ax
  · simp only [plotCall, if_neg hk, Option.getD_none]
    exact drawBodies_ok _ _ _ (fun b h => massCenterArtists_ok hl hv hc b h) ax
  · simp only [plotCall, if_neg hk, massCenterArtists_ok hl hv hc b hb, drawAndFinalize, withDrawn_eq]

/-- **C117.** The two pictures of the inertia of the bodies show, for each body asked for and in the order
given, radii of gyration and an angle that describe its inertia, at its mass centre and in its
colour; both pictures use the same numbers. -/
theorem C117_inertia (eig : Matrix (Fin 2) (Fin 2) ℝ → (Fin 2 → ℝ) × Matrix (Fin 2) (Fin 2) ℝ)
    (cycle : List String) (kind : SetKind) (p : Dict ℝ) (colors : Dict String) (hl : Locates kind)
    (hv : ValidNums kind p) (hc : bodyColors cycle kind = .ok colors) (ax : Axes) :
    ∃ rad : String → ℝ × ℝ × ℝ × ℝ,
      (∀ b ∈ kind.bodyLabels,
        DescribesInertia eig kind p b (rad b).1 (rad b).2.1 (rad b).2.2.1 (rad b).2.2.2) ∧
      (∀ bodies : List String, (∀ b ∈ bodies, b ∈ kind.bodyLabels) →
        plotCall eig kind p colors (.radiiOfGyration (some bodies)) ax =
          (.ok (), withDrawn ax (bodies.flatMap fun b => radiiMark cycle kind p (rad b) b)) ∧
        plotCall eig kind p colors (.ellipsoids (some bodies)) ax =
          (.ok (), withDrawn ax (bodies.flatMap fun b => ellipsoidMark cycle kind p (rad b) b))) ∧
      ∀ b ∈ kind.bodyLabels,
        plotCall eig kind p colors (.bodyRadiiOfGyration b) ax =
          (.ok (), withDrawn ax (radiiMark cycle kind p (rad b) b)) ∧
        plotCall eig kind p colors (.bodyEllipsoid b) ax =
          (.ok (), withDrawn ax (ellipsoidMark cycle kind p (rad b) b)) := by
  have hk : ¬(kind = .moore2012 ∨ kind = .riderLean) := by rcases hl with rfl | rfl | rfl <;> decide
  obtain ⟨rad, hrad⟩ := inertiaArtists_ok eig hl hv hc
  refine ⟨rad, fun b hb => (hrad b hb).1, fun bodies hb => ⟨?_, ?_⟩, fun b hb => ⟨?_, ?_⟩⟩
  · simp only [plotCall, if_neg hk, Option.getD_some]
    exact drawBodies_ok _ _ _ (fun b h => (hrad b (hb b h)).2.1) ax
  · simp only [plotCall, if_neg hk, Option.getD_some]
    exact drawBodies_ok _ _ _ (fun b h => (hrad b (hb b h)).2.2) ax
  · simp only [plotCall, if_neg hk, (hrad b hb).2.1, drawAndFinalize, withDrawn_eq]
  · simp only [plotCall, if_neg hk, (hrad b hb).2.2, drawAndFinalize, withDrawn_eq]

/-- **C117.** A body that the class does not have makes the three plots over bodies raise a KeyError; the
bodies before it have been drawn, those after it have not. -/
theorem C117_unknown_body (eig : Matrix (Fin 2) (Fin 2) ℝ → (Fin 2 → ℝ) × Matrix (Fin 2) (Fin 2) ℝ)
    (cycle : List String) (kind : SetKind) (p : Dict ℝ) (colors : Dict String) (hl : Locates kind)
    (hv : ValidNums kind p) (hc : bodyColors cycle kind = .ok colors) (ax : Axes)
    (known others : List String) (bad : String) (hknown : ∀ b ∈ known, b ∈ kind.bodyLabels)
    (hbad : bad ∉ kind.bodyLabels) :
    ∃ rad : String → ℝ × ℝ × ℝ × ℝ,
      (∀ b ∈ kind.bodyLabels,
        DescribesInertia eig kind p b (rad b).1 (rad b).2.1 (rad b).2.2.1 (rad b).2.2.2) ∧
      ∀ call ∈ [(PlotCall.massCenters (some (known ++ bad :: others)), massCenterMark cycle kind p),
          (PlotCall.radiiOfGyration (some (known ++ bad :: others)), fun b => radiiMark cycle kind p (rad b) b),
          (PlotCall.ellipsoids (some (known ++ bad :: others)), fun b => ellipsoidMark cycle kind p (rad b) b)],
        (∃ k, (plotCall eig kind p colors call.1 ax).1 = .error (.keyError k)) ∧
        (plotCall eig kind p colors call.1 ax).2.artists = ax.artists ++ known.flatMap call.2 := by
  have hk : ¬(kind = .moore2012 ∨ kind = .riderLean) := by rcases hl with rfl | rfl | rfl <;> decide
  obtain ⟨rad, hrad⟩ := inertiaArtists_ok eig hl hv hc
  obtain ⟨e, _, hx, _⟩ := extended_ok kind p hl hv
  have hcol := colors_unknown hc bad hbad
  have get_cases : ∀ (q : Dict ℝ) (k : String), (∃ v, q.get k = .ok v) ∨ ∃ k', q.get k = .error (.keyError k') := by
    intro q k
    unfold Dict.get
    cases q.find? k with
    | none => exact Or.inr ⟨_, rfl⟩
    | some v => exact Or.inl ⟨_, rfl⟩
  have xz : (∃ c, bodyXZ kind p bad = .ok c) ∨ ∃ k, bodyXZ kind p bad = .error (.keyError k) := by
    unfold bodyXZ
    rw [hx]
    rcases get_cases (p.update e) ("x" ++ bad) with ⟨x, h1⟩ | ⟨k, h1⟩
    · rcases get_cases (p.update e) ("z" ++ bad) with ⟨z, h2⟩ | ⟨k, h2⟩
      · exact Or.inl ⟨_, by simp only [h1, h2]; rfl⟩
      · exact Or.inr ⟨k, by simp only [h1, h2]; rfl⟩
    · exact Or.inr ⟨k, by simp only [h1]; rfl⟩
  have rd : (∃ c, bodyRadii eig kind p bad = .ok c) ∨ ∃ k, bodyRadii eig kind p bad = .error (.keyError k) := by
    unfold bodyRadii
    rw [hx]
    have tensor : (kind = .meijaard ∨ kind = .feedback) → (∃ I, formInertiaTensor kind p bad = .ok I) ∨
        ∃ k, formInertiaTensor kind p bad = .error (.keyError k) := by
      intro h
      unfold formInertiaTensor
      rw [if_pos h, hx]
      simp only
      rcases get_cases (p.update e) ("I" ++ bad ++ "xx") with ⟨x, h1⟩ | ⟨k, h1⟩
      · rcases get_cases (p.update e) ("I" ++ bad ++ "xz") with ⟨z, h2⟩ | ⟨k, h2⟩
        · rcases get_cases (p.update e) ("I" ++ bad ++ "yy") with ⟨z, h3⟩ | ⟨k, h3⟩
          · rcases get_cases (p.update e) ("I" ++ bad ++ "zz") with ⟨z, h4⟩ | ⟨k, h4⟩
            · exact Or.inl ⟨_, by simp only [h1, h2, h3, h4]; rfl⟩
            · exact Or.inr ⟨k, by simp only [h1, h2, h3, h4]; rfl⟩
          · exact Or.inr ⟨k, by simp only [h1, h2, h3]; rfl⟩
        · exact Or.inr ⟨k, by simp only [h1, h2]; rfl⟩
      · exact Or.inr ⟨k, by simp only [h1]; rfl⟩
    have meij : (kind = .meijaard ∨ kind = .feedback) → 
        (∃ c, ((formInertiaTensor kind p bad).bind fun I => ((p.update e).get ("m" ++ bad)).bind fun m =>
          ((p.update e).get ("I" ++ bad ++ "yy")).map fun Iyy =>
            planarRadii (eig (xzPlane I)).1 (eig (xzPlane I)).2 m Iyy) = .ok c) ∨
        ∃ k, ((formInertiaTensor kind p bad).bind fun I => ((p.update e).get ("m" ++ bad)).bind fun m =>
          ((p.update e).get ("I" ++ bad ++ "yy")).map fun Iyy =>
            planarRadii (eig (xzPlane I)).1 (eig (xzPlane I)).2 m Iyy) = .error (.keyError k) := by
      intro h
      rcases tensor h with ⟨I, h1⟩ | ⟨k, h1⟩
      · rcases get_cases (p.update e) ("m" ++ bad) with ⟨z, h2⟩ | ⟨k, h2⟩
        · rcases get_cases (p.update e) ("I" ++ bad ++ "yy") with ⟨z, h3⟩ | ⟨k, h3⟩
          · exact Or.inl ⟨_, by rw [h1, h2, h3]; rfl⟩
          · exact Or.inr ⟨k, by rw [h1, h2, h3]; rfl⟩
        · exact Or.inr ⟨k, by rw [h1, h2]; rfl⟩
      · exact Or.inr ⟨k, by rw [h1]; rfl⟩
    rcases hl with rfl | rfl | rfl
    · exact meij (by simp)
    · exact meij (by simp)
    · simp only
      rcases get_cases (p.update e) ("k" ++ bad ++ "yy") with ⟨x, h1⟩ | ⟨k, h1⟩
      · rcases get_cases (p.update e) ("k" ++ bad ++ "aa") with ⟨z, h2⟩ | ⟨k, h2⟩
        · rcases get_cases (p.update e) ("k" ++ bad ++ "bb") with ⟨z, h3⟩ | ⟨k, h3⟩
          · rcases get_cases (p.update e) ("alpha" ++ bad) with ⟨z, h4⟩ | ⟨k, h4⟩
            · exact Or.inl ⟨_, by simp only [h1, h2, h3, h4]; rfl⟩
            · exact Or.inr ⟨k, by simp only [h1, h2, h3, h4]; rfl⟩
          · exact Or.inr ⟨k, by simp only [h1, h2, h3]; rfl⟩
        · exact Or.inr ⟨k, by simp only [h1, h2]; rfl⟩
      · exact Or.inr ⟨k, by simp only [h1]; rfl⟩
  have e1 : ∃ k, massCenterArtists kind p colors bad = .error (.keyError k) := by
    unfold massCenterArtists
    rw [symbolRadius_ok kind p hl hv, hcol]
    rcases xz with ⟨c, h⟩ | ⟨k, h⟩ <;> rw [h] <;> exact ⟨_, rfl⟩
  have e2 : ∃ k, radiiArtists eig kind p colors bad = .error (.keyError k) := by
    unfold radiiArtists
    rw [hcol]
    rcases xz with ⟨c, h⟩ | ⟨k, h⟩ <;> rw [h]
    · rcases rd with ⟨c, h⟩ | ⟨k, h⟩ <;> rw [h] <;> exact ⟨_, rfl⟩
    · exact ⟨_, rfl⟩
  have e3 : ∃ k, ellipsoidArtists eig kind p colors bad = .error (.keyError k) := by
    unfold ellipsoidArtists
    rw [hcol]
    rcases rd with ⟨c, h⟩ | ⟨k, h⟩ <;> rw [h]
    · rcases xz with ⟨c, h⟩ | ⟨k, h⟩ <;> rw [h] <;> exact ⟨_, rfl⟩
    · exact ⟨_, rfl⟩
  refine ⟨rad, fun b hb => (hrad b hb).1, ?_⟩
  intro call hcall
  simp only [List.mem_cons, List.not_mem_nil, or_false] at hcall
  rcases hcall with rfl | rfl | rfl
  · obtain ⟨k, hk'⟩ := e1
    have := drawBodies_error _ _ known others bad _
      (fun b h => massCenterArtists_ok hl hv hc b (hknown b h)) hk' ax
    simp only [plotCall, if_neg hk, Option.getD_some]
    exact ⟨⟨k, this.1⟩, this.2⟩
  · obtain ⟨k, hk'⟩ := e2
    have := drawBodies_error _ _ known others bad _ (fun b h => (hrad b (hknown b h)).2.1) hk' ax
    simp only [plotCall, if_neg hk, Option.getD_some]
    exact ⟨⟨k, this.1⟩, this.2⟩
  · obtain ⟨k, hk'⟩ := e3
    have := drawBodies_error _ _ known others bad _ (fun b h => (hrad b (hknown b h)).2.2) hk' ax
    simp only [plotCall, if_neg hk, Option.getD_some]
    exact ⟨⟨k, this.1⟩, this.2⟩

/-- **C117.** `plot_all` of a valid set always succeeds and draws, behind what is there already: the radii
of gyration and the ellipsoid of every body, for the sets with a person the person, the bicycle with
its steer axis, and the mass centre of every body; each once, and nothing else. -/
theorem C117_plot_all (eig : Matrix (Fin 2) (Fin 2) ℝ → (Fin 2 → ℝ) × Matrix (Fin 2) (Fin 2) ℝ)
    (cycle : List String) (kind : SetKind) (p : Dict ℝ) (colors : Dict String) (hl : Locates kind)
    (hv : ValidNums kind p) (hc : bodyColors cycle kind = .ok colors) (ax : Axes) :
    ∃ rad : String → ℝ × ℝ × ℝ × ℝ,
      (∀ b ∈ kind.bodyLabels,
        DescribesInertia eig kind p b (rad b).1 (rad b).2.1 (rad b).2.2.1 (rad b).2.2.2) ∧
      plotCall eig kind p colors .all ax = (.ok (), withDrawn ax (
        (kind.bodyLabels.flatMap fun b => radiiMark cycle kind p (rad b) b) ++
        (kind.bodyLabels.flatMap fun b => ellipsoidMark cycle kind p (rad b) b) ++
        (if kind = .moore2019 then personMark cycle p else []) ++
        geometryMark p true ++
        kind.bodyLabels.flatMap (massCenterMark cycle kind p))) := by
  have hk : ¬(kind = .moore2012 ∨ kind = .riderLean) := by rcases hl with rfl | rfl | rfl <;> decide
  obtain ⟨rad, hrad⟩ := inertiaArtists_ok eig hl hv hc
  refine ⟨rad, fun b hb => (hrad b hb).1, ?_⟩
  have h1 := drawBodies_ok (radiiArtists eig kind p colors) (fun b => radiiMark cycle kind p (rad b) b)
    kind.bodyLabels (fun b hb => (hrad b hb).2.1)
  have h2 := drawBodies_ok (ellipsoidArtists eig kind p colors) (fun b => ellipsoidMark cycle kind p (rad b) b)
    kind.bodyLabels (fun b hb => (hrad b hb).2.2)
  have h4 := geometryArtists_ok kind p hl hv true
  have h5 := drawBodies_ok (massCenterArtists kind p colors) (massCenterMark cycle kind p)
    kind.bodyLabels (fun b hb => massCenterArtists_ok hl hv hc b hb)
  have fin : ∀ (ax : Axes) l, finalizePlot (withDrawn ax l) = withDrawn ax l := by
    intro ax l; rw [finalizePlot_eq]; rfl
  simp only [plotCall, if_neg hk]
  rcases hl with rfl | rfl | rfl
  · simp only [andThen, h1, h2, h4, h5, drawAndFinalize, withDrawn_eq, withDrawn_withDrawn]
    simp
  · simp only [andThen, h1, h2, h4, h5, drawAndFinalize, withDrawn_eq, withDrawn_withDrawn]
    simp
  · simp only [andThen, h1, h2, h4, h5, drawAndFinalize, diamond_ok hv hc, withDrawn_eq, withDrawn_withDrawn, fin]
    simp

/-- **C117.** `plot_geometry` of a valid set draws the ground, the wheels, the frame and, exactly if asked
for, the steer axis. -/
theorem C117_geometry (eig : Matrix (Fin 2) (Fin 2) ℝ → (Fin 2 → ℝ) × Matrix (Fin 2) (Fin 2) ℝ)
    (kind : SetKind) (p : Dict ℝ) (colors : Dict String) (hl : Locates kind) (hv : ValidNums kind p)
    (steer : Bool) (ax : Axes) :
    plotCall eig kind p colors (.geometry steer) ax = (.ok (), withDrawn ax (geometryMark p steer)) := by
  have hk : ¬(kind = .moore2012 ∨ kind = .riderLean) := by rcases hl with rfl | rfl | rfl <;> decide
  simp only [plotCall, if_neg hk, geometryArtists_ok kind p hl hv, drawAndFinalize, withDrawn_eq]

/-- **C117.** `plot_person_diamond` draws the rhombus in the person's colour; the optional cross joins the
opposite corners.  The sets without a person do not have the method. -/
theorem C117_person (eig : Matrix (Fin 2) (Fin 2) ℝ → (Fin 2 → ℝ) × Matrix (Fin 2) (Fin 2) ℝ)
    (cycle : List String) (kind : SetKind) (p : Dict ℝ) (colors : Dict String)
    (hv : ValidNums kind p) (hc : bodyColors cycle kind = .ok colors) (cross : Bool) (ax : Axes) :
    (kind = .moore2019 → ∃ a b c d : ℝ × ℝ,
      personMark cycle p = [.line [a, b, c, d, a] (colorOf cycle .moore2019 "P")] ∧
      plotCall eig kind p colors (.personDiamond cross) ax = (.ok (), withDrawn ax (personMark cycle p ++
        if cross then [.line [c, a] "black", .line [b, d] "black"] else []))) ∧
    (kind ≠ .moore2019 → plotCall eig kind p colors (.personDiamond cross) ax =
      (.error .attributeError, ax)) := by
  constructor
  · rintro rfl
    refine ⟨_, _, _, _, rfl, ?_⟩
    have h : Dict.require p ["wP", "alphaP", "lP", "xP", "zP"] = .ok () :=
      (Dict.require_ok_iff p _).2 fun k hk => hv k (by revert k; decide)
    simp only [plotCall, if_neg (show ¬(SetKind.moore2019 = .moore2012 ∨ SetKind.moore2019 = .riderLean) by decide),
      diamondArtists, h, colors_get hc "P" (by decide), Except.bind, Except.map, drawAndFinalize, withDrawn_eq,
      personMark, if_true]
    cases cross
    · simp
    · simp only [if_true, List.cons_append, List.nil_append]
      congr 3
      simp only [List.cons.injEq, Artist.line.injEq, Prod.mk.injEq, and_true, true_and]
      refine ⟨⟨?_, ?_⟩, ?_, ?_⟩ <;> ring
  · intro h
    unfold plotCall
    split
    · rfl
    · simp [diamondArtists, h, drawAndFinalize]

/-- **C117.** The sets of the other two classes have no plotting methods. -/
theorem C117_no_plots (eig : Matrix (Fin 2) (Fin 2) ℝ → (Fin 2 → ℝ) × Matrix (Fin 2) (Fin 2) ℝ)
    (kind : SetKind) (p : Dict ℝ) (colors : Dict String) (h : ¬Locates kind) (c : PlotCall) (ax : Axes) :
    plotCall eig kind p colors c ax = (.error .attributeError, ax) := by
  unfold plotCall
  rw [if_pos]
  cases kind <;> simp_all [Locates]

/-- non-vacuity of C117: the example sets of the three classes that can be drawn, in a style with five
colours -/
example (kind : SetKind) (hl : Locates kind) : ValidNums kind (nums (exampleSet kind)) ∧
    ∃ colors, bodyColors ["a", "b", "c", "d", "e"] kind = .ok colors := by
  refine ⟨fun k hk => ?_, ?_⟩
  · obtain ⟨v, hv, _⟩ := exampleSet_complete kind k hk
    rw [has_nums]
    exact (Dict.has_iff_exists _ _).2 ⟨v, hv⟩
  · obtain ⟨c, h, _⟩ := (C117_colors ["a", "b", "c", "d", "e"] kind).1 (by cases kind <;> decide)
    exact ⟨c, h⟩

end BP
