import Verif.Props.SetPlots
import Verif.Props.Steer
import Verif.Props.Tables
import Verif.Props.App
import Verif.Props.Bike
import Verif.Model.GeometryPlot

/-!
# C118, C119: the geometry plots of a bicycle, with matplotlib and with plotly
-/

set_option linter.unusedSimpArgs false

namespace BP

open Real Matrix Spec

theorem ebind_ok {A B : Type} {x : Except PyErr A} {f : A → Except PyErr B} {b : B}
    (h : x.bind f = .ok b) : ∃ a, x = .ok a ∧ f a = .ok b := by
  cases x with
  | error e => cases h
  | ok a => exact ⟨a, rfl, h⟩

theorem emap_ok {A B : Type} {x : Except PyErr A} {f : A → B} {b : B}
    (h : x.map f = .ok b) : ∃ a, x = .ok a ∧ f a = b := by
  cases x with
  | error e => cases h
  | ok a => cases h; exact ⟨a, rfl, rfl⟩

theorem get_ok {V : Type} {d : Dict V} {k : String} {v : V} (h : d.get k = .ok v) : d.find? k = some v := by
  unfold Dict.get at h
  cases hf : d.find? k with
  | none => rw [hf] at h; cases h
  | some w => rw [hf] at h; cases h; rfl

theorem get_getD {d : Dict ℝ} {k : String} {v : ℝ} (h : d.get k = .ok v) : v = d.getD k 0 :=
  (Dict.getD_eq_of_find? _ _ _ _ (get_ok h)).symm

theorem get_of_has {d : Dict ℝ} {k : String} (h : d.has k = true) : d.get k = .ok (d.getD k 0) := by
  unfold Dict.get; rw [find?_eq_getD h]

theorem mapM_ok_mem {A B : Type} {f : A → Except PyErr B} {l : List A} {out : List B}
    (h : l.mapM f = .ok out) {b : B} (hb : b ∈ out) : ∃ a ∈ l, f a = .ok b := by
  have hF := mapM_ok_forall₂ h
  clear h
  induction hF with
  | nil => cases hb
  | cons h1 _ ih =>
    rcases List.mem_cons.1 hb with rfl | hb
    · exact ⟨_, by simp, h1⟩
    · obtain ⟨a, ha, he⟩ := ih hb
      exact ⟨a, List.mem_cons_of_mem _ ha, he⟩

theorem foldl_set_find? {A B : Type} (key : A → String) (g : A → B) (l : List A) (d : Dict B) (k : String) :
    Dict.find? (l.foldl (fun d e => Dict.set d (key e) (g e)) d) k =
      ((l.reverse.find? fun e => key e = k).map g).or (d.find? k) := by
  induction l generalizing d with
  | nil => simp
  | cons a l ih =>
    rw [List.foldl_cons, ih, List.reverse_cons, List.find?_append, Dict.find?_set]
    cases h : l.reverse.find? fun e => key e = k with
    | some e => simp
    | none =>
      by_cases hk : key a = k
      · simp [hk]
      · simp [hk, Ne.symm hk]

/-- Two entries of a list without repetitions that have the same value are the same entry. -/
theorem zipIdx_find? (parts : List String) (hn : parts.Nodup) (i : ℕ) (hi : i < parts.length) :
    parts.zipIdx.reverse.find? (fun e => e.1 = parts[i]) = some (parts[i], i) := by
  cases h : parts.zipIdx.reverse.find? (fun e => e.1 = parts[i]) with
  | none =>
    rw [List.find?_eq_none] at h
    have := h (parts[i], i) (by simp [List.mem_reverse, List.mk_mem_zipIdx_iff_getElem?, hi])
    simp at this
  | some e =>
    have h1 := List.find?_some h
    have h2 := List.mem_of_find?_eq_some h
    obtain ⟨x, j⟩ := e
    rw [List.mem_reverse, List.mk_mem_zipIdx_iff_getElem?] at h2
    simp only [decide_eq_true_eq] at h1
    obtain ⟨hj, hx⟩ := List.getElem?_eq_some_iff.1 h2
    have : j = i := (List.Nodup.getElem_inj_iff hn).1 (hx.trans h1)
    subst this
    rw [h1]

/-! ## What the two figures have in common -/

/-- Where the mass centre of a part is in the drawing (x forward, y up): the wheels' at their hubs, the
flywheel's at the front hub, the others' at the stored coordinates. -/
noncomputable def Spec.drawnCenter (par : Dict ℝ) (part : String) : ℝ × ℝ :=
  let v := fun k => par.getD k 0
  if part = "R" then (0, v "rR")
  else if part = "F" ∨ part = "D" then (v "w", v "rF")
  else (v ("x" ++ part), -v ("z" ++ part))

/-- The labels of the mass centres: the wheels, then the other parts except the flywheel, and the fork
even if it has no mass. -/
def Spec.massCenterLabels (parts : List String) : List String :=
  ["F", "R"] ++ (parts.filter fun x => x ≠ "R" ∧ x ≠ "F" ∧ x ≠ "D") ++ if "H" ∈ parts then [] else ["H"]

/-- The frame in the drawing, and the dashed line of the steer axis. -/
theorem frameAndAxis_eq (par : Dict ℝ) (w c lam rR rF : ℝ)
    (h : w = par.getD "w" 0 ∧ c = par.getD "c" 0 ∧ lam = par.getD "lam" 0 ∧ rR = par.getD "rR" 0 ∧
      rF = par.getD "rF" 0) :
    frameAndAxis par =
      ((fundamentalGeometryPlotData w c lam rR rF).map fun q => (q.1, -q.2),
       [((fundamentalGeometryPlotData w c lam rR rF).getD 2 (0, 0)).map id Neg.neg,
        (steerGroundX ((fundamentalGeometryPlotData w c lam rR rF).getD 1 (0, 0))
          ((fundamentalGeometryPlotData w c lam rR rF).getD 2 (0, 0)), 0)]) := by
  obtain ⟨rfl, rfl, rfl, rfl, rfl⟩ := h
  rfl

/-- What `plot_bicycle_geometry` returns, piece by piece. -/
theorem plot_pieces {eig : Mat3 → Vec3 × Mat3} {argsort : Vec3 → Fin 3 → Fin 3} {cmap : ℝ → String}
    {s : Drawable} {o : GeometryOptions} {fig : GeometryFigure}
    (h : plotBicycleGeometry eig argsort cmap s o = .ok fig) :
    ∃ parts ells ellipses segs pens coms stick,
      drawnParts s.par = .ok parts ∧
      (if o.inertiaEllipse then allEllipses eig argsort s.par none parts else .ok []) = .ok ells ∧
      (ells.mapM fun e => ((partColors cmap parts).get e.1).map fun c =>
        Artist.ellipse ⟨e.2.1.1, e.2.1.2, e.2.2.1, e.2.2.2.1, e.2.2.2.2⟩ c) = .ok ellipses ∧
      pendulumSegments s o = .ok segs ∧
      pendulumArtists (partColors cmap parts) segs = .ok pens ∧
      (if o.centerOfMass then comMarks s.par (partColors cmap parts) parts else .ok []) = .ok coms ∧
      stickFigure s = .ok stick ∧
      fig.artists = ellipses ++
        [.line [(-s.par.getD "rR" 0, 0), (s.par.getD "w" 0 + s.par.getD "rF" 0, 0)] "k",
         .circle (0, s.par.getD "rR" 0) (s.par.getD "rR" 0) "",
         .circle (s.par.getD "w" 0, s.par.getD "rF" 0) (s.par.getD "rF" 0) "",
         .line (frameAndAxis s.par).1 "k", .line (frameAndAxis s.par).2 "k"] ++ pens ++ coms ++ stick.1 ∧
      fig.ylim = yLimits (s.par.getD "rR" 0) (s.par.getD "rF" 0) (frameAndAxis s.par).1 stick.2 := by
  unfold plotBicycleGeometry at h
  obtain ⟨parts, h1, h⟩ := ebind_ok h
  obtain ⟨ells, h2, h⟩ := ebind_ok h
  obtain ⟨ellipses, h3, h⟩ := ebind_ok h
  obtain ⟨u, _, h⟩ := ebind_ok h
  obtain ⟨segs, h4, h⟩ := ebind_ok h
  obtain ⟨pens, h5, h⟩ := ebind_ok h
  obtain ⟨coms, h6, h⟩ := ebind_ok h
  obtain ⟨stick, h7, h⟩ := ebind_ok h
  cases h
  exact ⟨parts, ells, ellipses, segs, pens, coms, stick, h1, h2, h3, h4, h5, h6, h7, rfl, rfl⟩

/-- **C118.** Whatever the options, a returned figure shows the ground from the back of the rear wheel to
the front of the front wheel, the two wheels standing on it with the stored radii and wheelbase, the
frame from hub to hub, and the steer axis down to the ground: unless the frame's two corners are at
the same height, it ends at the distance `w + c`. -/
theorem C118_bicycle_drawn (eig : Mat3 → Vec3 × Mat3) (argsort : Vec3 → Fin 3 → Fin 3)
    (cmap : ℝ → String) (s : Drawable) (o : GeometryOptions) (fig : GeometryFigure)
    (h : plotBicycleGeometry eig argsort cmap s o = .ok fig) (w c lam rR rF : ℝ)
    (hp : w = s.par.getD "w" 0 ∧ c = s.par.getD "c" 0 ∧ lam = s.par.getD "lam" 0 ∧
      rR = s.par.getD "rR" 0 ∧ rF = s.par.getD "rF" 0) :
    Artist.line [(-rR, 0), (w + rF, 0)] "k" ∈ fig.artists ∧
    Artist.circle (0, rR) rR "" ∈ fig.artists ∧ Artist.circle (w, rF) rF "" ∈ fig.artists ∧
    ∃ a b : ℝ × ℝ, Artist.line [(0, rR), a, b, (w, rF)] "k" ∈ fig.artists ∧
      (cos lam ≠ 0 → a.2 ≠ b.2 → Artist.line [b, (w + c, 0)] "k" ∈ fig.artists) := by
  obtain ⟨parts, ells, ellipses, segs, pens, coms, stick, _, _, _, _, _, _, _, hfig, _⟩ := plot_pieces h
  have hfa := frameAndAxis_eq s.par w c lam rR rF hp
  obtain ⟨rfl, rfl, rfl, rfl, rfl⟩ := hp
  generalize s.par.getD "w" 0 = w at *
  generalize s.par.getD "c" 0 = c at *
  generalize s.par.getD "lam" 0 = lam at *
  generalize s.par.getD "rR" 0 = rR at *
  generalize s.par.getD "rF" 0 = rF at *
  refine ⟨by rw [hfig]; simp, by rw [hfig]; simp, by rw [hfig]; simp, ?_⟩
  obtain ⟨p1, p2, hpts⟩ : ∃ p1 p2, fundamentalGeometryPlotData w c lam rR rF =
      [(0, -rR), p1, p2, (w, -rF)] := ⟨_, _, rfl⟩
  rw [hpts] at hfa
  refine ⟨(p1.1, -p1.2), (p2.1, -p2.2), ?_, fun hc hne => ?_⟩
  · rw [hfig, hfa]; simp
  · have hg := C83_steer_axis_ground_point w c lam rR rF hc _ p1 p2 _ hpts (by
      intro h'; apply hne; simp [h'])
    rw [hfig, hfa]
    simp [hg, Prod.map]

/-! ## Mass centres -/

theorem comMarks_spec {par : Dict ℝ} {colors : Dict String} {parts : List String} {l : List Artist}
    (h : comMarks par colors parts = .ok l) :
    let color : String → String := fun p => if p = "H" ∧ "H" ∉ parts then "b" else colors.getD p ""
    l = (massCenterLabels parts).flatMap fun part => comMark (drawnCenter par part) (color part) part := by
  intro color
  unfold comMarks at h
  obtain ⟨w, hw, h⟩ := ebind_ok h
  obtain ⟨rF, hrF, h⟩ := ebind_ok h
  obtain ⟨cF, hcF, h⟩ := ebind_ok h
  obtain ⟨rR, hrR, h⟩ := ebind_ok h
  obtain ⟨cR, hcR, h⟩ := ebind_ok h
  obtain ⟨rest, hrest, h⟩ := ebind_ok h
  obtain ⟨hm, hh, h⟩ := emap_ok h
  have hw := get_getD hw
  have hrF := get_getD hrF
  have hrR := get_getD hrR
  have hcF := get_ok hcF
  have hcR := get_ok hcR
  have hall := mapM_ok_forall₂ hrest
  have hfilter : (parts.filter fun x => decide ¬(x = "R" ∨ x = "F" ∨ x = "D")) =
      parts.filter fun x => decide (x ≠ "R" ∧ x ≠ "F" ∧ x ≠ "D") := by
    congr 1; funext x; simp [not_or]
  rw [hfilter] at hall
  have key : ∀ (ps : List String) (out : List (List Artist)),
      (∀ p ∈ ps, p ∈ parts ∧ p ≠ "R" ∧ p ≠ "F" ∧ p ≠ "D") →
      List.Forall₂ (fun part b => ((par.get ("x" ++ part)).bind fun x => (par.get ("z" ++ part)).bind fun z =>
        (colors.get part).map fun c => comMark (x, -z) c part) = .ok b) ps out →
      (∀ p ∈ ps, colors.find? p = some (color p)) ∧
      out.flatten = ps.flatMap fun part => comMark (drawnCenter par part) (color part) part := by
    intro ps out hps hF
    induction hF with
    | nil => simp
    | @cons p b ps out hb _ ih =>
      obtain ⟨hpp, h1, h2, h3⟩ := hps p (by simp)
      obtain ⟨x, hx, hb⟩ := ebind_ok hb
      obtain ⟨z, hz, hb⟩ := ebind_ok hb
      obtain ⟨c, hc, hb⟩ := emap_ok hb
      have hcol : color p = c := by
        have : ¬(p = "H" ∧ "H" ∉ parts) := by
          rintro ⟨rfl, h'⟩; exact h' hpp
        simp only [color, if_neg this]
        exact Dict.getD_eq_of_find? _ _ _ _ (get_ok hc)
      have hctr : drawnCenter par p = (x, -z) := by
        simp [drawnCenter, h1, h2, h3, get_getD hx, get_getD hz]
      obtain ⟨ih1, ih2⟩ := ih fun q hq => hps q (List.mem_cons_of_mem _ hq)
      refine ⟨?_, ?_⟩
      · intro q hq
        rcases List.mem_cons.1 hq with rfl | hq
        · rw [hcol]; exact get_ok hc
        · exact ih1 q hq
      · simp [← hb, ih2, hcol, hctr]
  obtain ⟨k1, k2⟩ := key _ _ (by
    intro p hp
    rw [List.mem_filter] at hp
    simpa using hp) hall
  have colF : color "F" = cF := by
    simp only [color]; rw [if_neg (by simp)]; exact Dict.getD_eq_of_find? _ _ _ _ hcF
  have colR : color "R" = cR := by
    simp only [color]; rw [if_neg (by simp)]; exact Dict.getD_eq_of_find? _ _ _ _ hcR
  rw [← h, k2]
  have e1 : comMark (w, rF) cF "F" = comMark (drawnCenter par "F") (color "F") "F" := by
    rw [colF]; simp [drawnCenter, hw, hrF]
  have e2 : comMark (0, rR) cR "R" = comMark (drawnCenter par "R") (color "R") "R" := by
    rw [colR]; simp [drawnCenter, hrR]
  rw [e1, e2]
  by_cases hH : "H" ∈ parts
  · rw [if_pos hH] at hh
    cases hh
    simp [massCenterLabels, hH]
  · rw [if_neg hH] at hh
    obtain ⟨x, hx, hh⟩ := ebind_ok hh
    obtain ⟨z, hz, hh⟩ := emap_ok hh
    have e3 : comMark (drawnCenter par "H") (color "H") "H" = hm := by
      rw [← hh]
      simp [drawnCenter, color, hH, get_getD hx, get_getD hz]
    simp [massCenterLabels, hH, e3]

/-- A wedge is drawn only for mass centres. -/
def Spec.IsWedge : Artist → Prop
  | .wedge .. => True
  | _ => False

/-- **C118.** With `centerOfMass` the figure has, in this order and besides other things, one symbol of
radius 3 cm with a label for each of: the front wheel, the rear wheel, every other part with a mass
except the flywheel, and the fork even without a mass; each at the mass centre of its part, in the
part's colour (blue for a fork without a mass).  Without the option there is none. -/
theorem C118_mass_centers (eig : Mat3 → Vec3 × Mat3) (argsort : Vec3 → Fin 3 → Fin 3)
    (cmap : ℝ → String) (s : Drawable) (o : GeometryOptions) (fig : GeometryFigure)
    (h : plotBicycleGeometry eig argsort cmap s o = .ok fig) :
    ∃ parts, drawnParts s.par = .ok parts ∧
    ∃ color : String → String,
      (∀ part ∈ parts, (partColors cmap parts).find? part = some (color part)) ∧
      ("H" ∉ parts → color "H" = "b") ∧
      ∃ before after marks : List Artist, fig.artists = before ++ marks ++ after ∧
        (∀ a ∈ before ++ after, ¬IsWedge a) ∧
        marks = if o.centerOfMass then (massCenterLabels parts).flatMap fun part =>
          [.wedge (drawnCenter s.par part) 0.03 0 90 (color part),
           .wedge (drawnCenter s.par part) 0.03 180 270 (color part),
           .circle (drawnCenter s.par part) 0.03 "",
           .text ((drawnCenter s.par part).1 + 0.03, (drawnCenter s.par part).2 + 0.03) part] else [] := by
  obtain ⟨parts, ells, ellipses, segs, pens, coms, stick, h1, h2, h3, h4, h5, h6, h7, hfig, _⟩ := plot_pieces h
  refine ⟨parts, h1, ?_⟩
  have hell : ∀ a ∈ ellipses, ¬IsWedge a := by
    intro a ha
    obtain ⟨e, _, he⟩ := mapM_ok_mem h3 ha
    obtain ⟨c, _, rfl⟩ := emap_ok he
    simp [IsWedge]
  have hpen : ∀ a ∈ pens, ¬IsWedge a := by
    intro a ha
    unfold pendulumArtists at h5
    obtain ⟨l, hl, rfl⟩ := emap_ok h5
    obtain ⟨l2, hl2, ha⟩ := List.mem_flatten.1 ha
    obtain ⟨l1, hl1, hl2⟩ := List.mem_flatten.1 hl2
    obtain ⟨e, _, he⟩ := mapM_ok_mem hl hl1
    obtain ⟨g, _, hg⟩ := mapM_ok_mem he hl2
    obtain ⟨c, _, rfl⟩ := emap_ok hg
    simp only [List.mem_cons, List.not_mem_nil, or_false] at ha
    rcases ha with rfl | rfl <;> simp [IsWedge]
  have hstick : ∀ a ∈ stick.1, ¬IsWedge a := by
    intro a ha
    unfold stickFigure at h7
    cases hh : s.human with
    | none => rw [hh] at h7; cases h7; cases ha
    | some j =>
      rw [hh] at h7
      obtain ⟨l, _, h7⟩ := ebind_ok h7
      obtain ⟨top, _, rfl⟩ := emap_ok h7
      obtain ⟨pts, _, rfl⟩ := List.mem_map.1 ha
      simp [IsWedge]
  refine ⟨fun p => if p = "H" ∧ "H" ∉ parts then "b" else (partColors cmap parts).getD p "", ?_, ?_, ?_⟩
  · intro part hp
    have hnot : ¬(part = "H" ∧ "H" ∉ parts) := by rintro ⟨rfl, h'⟩; exact h' hp
    simp only [if_neg hnot]
    have hh : (partColors cmap parts).has part = true := by
      unfold partColors
      rw [Dict.has, foldl_set_find?]
      cases hf : parts.zipIdx.reverse.find? fun e => e.1 = part with
      | some e => simp
      | none =>
        exfalso
        rw [List.find?_eq_none] at hf
        obtain ⟨i, hi, rfl⟩ := List.getElem_of_mem hp
        have := hf (parts[i], i) (by simp [List.mem_reverse, List.mk_mem_zipIdx_iff_getElem?, hi])
        simp at this
    obtain ⟨v, hv⟩ := (Dict.has_iff_exists _ _).1 hh
    rw [hv, Dict.getD_eq_of_find? _ _ _ _ hv]
  · intro hH; simp [hH]
  · refine ⟨_, stick.1, coms, hfig, ?_, ?_⟩
    · intro a ha
      simp only [List.mem_append, List.mem_cons, List.not_mem_nil, or_false] at ha
      rcases ha with ((ha | ha) | ha) | ha
      · exact hell a ha
      · rcases ha with rfl | rfl | rfl | rfl | rfl <;> simp [IsWedge]
      · exact hpen a ha
      · exact hstick a ha
    · by_cases hc : o.centerOfMass
      · rw [if_pos hc] at h6 ⊢
        exact comMarks_spec h6
      · rw [if_neg hc] at h6 ⊢
        cases h6; rfl

/-- **C118.** Among `n` different parts the one at place `i` has the colour `i/n` of the colour map, in all
the drawings of that part; if the map has different colours there, no two parts share one. -/
theorem C118_part_colors (cmap : ℝ → String) (parts : List String) (hn : parts.Nodup) (i : ℕ)
    (hi : i < parts.length) :
    (partColors cmap parts).find? parts[i] = some (cmap ((i : ℝ) / (parts.length : ℝ))) := by
  unfold partColors
  rw [foldl_set_find? (fun e : String × ℕ => e.1)
    (fun e => cmap ((e.2 : ℝ) / (parts.length : ℝ))), zipIdx_find? parts hn i hi]
  rfl

/-- **C118.** With one entry per part, every part except the flywheel is labelled exactly once, and
nothing else is, apart from the wheels and the fork. -/
theorem C118_labels (parts : List String) (hn : parts.Nodup) :
    (massCenterLabels parts).Nodup ∧
    ∀ part, part ∈ massCenterLabels parts ↔
      part = "F" ∨ part = "R" ∨ part = "H" ∨ (part ∈ parts ∧ part ≠ "D") := by
  constructor
  · unfold massCenterLabels
    rw [List.nodup_append]
    refine ⟨?_, ?_, ?_⟩
    · rw [List.nodup_append]
      refine ⟨by decide, hn.filter _, ?_⟩
      rintro a ha b hb rfl
      rw [List.mem_filter] at hb
      simp only [List.mem_cons, List.not_mem_nil, or_false] at ha
      rcases ha with rfl | rfl <;> simp at hb
    · split <;> simp
    · rintro a ha b hb rfl
      split at hb
      · cases hb
      · rename_i hH
        rw [List.mem_singleton] at hb
        subst hb
        rw [List.mem_append, List.mem_filter] at ha
        rcases ha with ha | ha
        · simp at ha
        · exact hH ha.1
  · intro part
    by_cases hH : "H" ∈ parts
    · simp only [massCenterLabels, hH, if_true, List.append_nil, List.mem_append, List.mem_cons,
        List.not_mem_nil, or_false, List.mem_filter, decide_eq_true_eq]
      constructor
      · rintro ((h | h) | ⟨h1, _, _, h2⟩)
        · exact Or.inl h
        · exact Or.inr (Or.inl h)
        · exact Or.inr (Or.inr (Or.inr ⟨h1, h2⟩))
      · rintro (h | h | rfl | ⟨h1, h2⟩)
        · exact Or.inl (Or.inl h)
        · exact Or.inl (Or.inr h)
        · exact Or.inr ⟨hH, by decide, by decide, by decide⟩
        · by_cases hF : part = "F"
          · exact Or.inl (Or.inl hF)
          · by_cases hR : part = "R"
            · exact Or.inl (Or.inr hR)
            · exact Or.inr ⟨h1, hR, hF, h2⟩
    · simp only [massCenterLabels, hH, if_false, List.mem_append, List.mem_cons,
        List.not_mem_nil, or_false, List.mem_filter, decide_eq_true_eq]
      constructor
      · rintro (((h | h) | ⟨h1, _, _, h2⟩) | h)
        · exact Or.inl h
        · exact Or.inr (Or.inl h)
        · exact Or.inr (Or.inr (Or.inr ⟨h1, h2⟩))
        · exact Or.inr (Or.inr (Or.inl h))
      · rintro (h | h | rfl | ⟨h1, h2⟩)
        · exact Or.inl (Or.inl (Or.inl h))
        · exact Or.inl (Or.inl (Or.inr h))
        · exact Or.inr rfl
        · by_cases hF : part = "F"
          · exact Or.inl (Or.inl (Or.inl hF))
          · by_cases hR : part = "R"
            · exact Or.inl (Or.inl (Or.inr hR))
            · exact Or.inl (Or.inr ⟨h1, hR, hF, h2⟩)

/-! ## Pendulum axes -/

/-- The segments drawn for a part: one for each measured slope, all on their measured lines (in the
drawing z is up), centred at the point of the line closest to the mass centre, as long as the
pendulum's inertia. -/
def Spec.MeasuredLines (intercepts inertias : Dict (List ℝ)) (par : Dict ℝ) (part : String)
    (slopes : List ℝ) (segs : List ((ℝ × ℝ) × (ℝ × ℝ))) : Prop :=
  segs.length = slopes.length ∧
  ∀ (i : ℕ) (m : ℝ), slopes[i]? = some m → ∃ bs ls, intercepts.find? part = some bs ∧
    inertias.find? part = some ls ∧ ∃ b L seg, bs[i]? = some b ∧ ls[i]? = some L ∧ segs[i]? = some seg ∧
    -seg.1.2 = m * seg.1.1 + b ∧ -seg.2.2 = m * seg.2.1 + b ∧
    ((seg.1.1 + seg.2.1) / 2 - par.getD ("x" ++ part) 0) +
      m * (-(seg.1.2 + seg.2.2) / 2 - par.getD ("z" ++ part) 0) = 0 ∧
    (0 ≤ L → √((seg.2.1 - seg.1.1) ^ 2 + (seg.2.2 - seg.1.2) ^ 2) = L)

theorem forall₂_getElem? {A B : Type} {R : A → B → Prop} {l : List A} {m : List B}
    (h : List.Forall₂ R l m) : l.length = m.length ∧
    ∀ (i : ℕ) (a : A), l[i]? = some a → ∃ b, m[i]? = some b ∧ R a b := by
  induction h with
  | nil => simp
  | @cons a b l m hab _ ih =>
    refine ⟨by simp [ih.1], ?_⟩
    intro i x hx
    cases i with
    | zero => simp at hx; subst hx; exact ⟨b, by simp, hab⟩
    | succ i => simp at hx; simpa using ih.2 i x hx

theorem partPendulums_spec {intercepts inertias : Dict (List ℝ)} {par : Dict ℝ} {part : String}
    {slopes : List ℝ} {segs : List ((ℝ × ℝ) × (ℝ × ℝ))}
    (h : partPendulums intercepts inertias par part slopes = .ok segs) :
    MeasuredLines intercepts inertias par part slopes segs := by
  unfold partPendulums at h
  obtain ⟨x, hx, h⟩ := ebind_ok h
  obtain ⟨z, hz, h⟩ := ebind_ok h
  obtain ⟨hlen, hget⟩ := forall₂_getElem? (mapM_ok_forall₂ h)
  refine ⟨by rw [← hlen]; simp, ?_⟩
  intro i m hm
  obtain ⟨seg, hseg, h⟩ := hget i (m, i) (by simp [List.getElem?_zipIdx, hm])
  obtain ⟨bs, hbs, h⟩ := ebind_ok h
  refine ⟨bs, ?_⟩
  dsimp only at h
  cases hb : bs[i]? with
  | none => rw [hb] at h; cases h
  | some b =>
    rw [hb] at h
    obtain ⟨ls, hls, h⟩ := ebind_ok h
    cases hL : ls[i]? with
    | none => rw [hL] at h; cases h
    | some L =>
      rw [hL] at h
      cases h
      refine ⟨ls, get_ok hbs, get_ok hls, b, L, _, rfl, hL, hseg, ?_, ?_, ?_, ?_⟩
      · simp only [pendulumSegment]; ring
      · simp only [pendulumSegment]; ring
      · rw [← get_getD hx, ← get_getD hz]
        simp only [pendulumSegment, projectPointOnLine]
        have : m ^ 2 + 1 ≠ 0 := by positivity
        field_simp
        ring
      · intro hL'
        exact (C83_pendulum_segment m b x z L hL').2.2

/-- The pendulum axes are drawn if they are asked for, were measured, and no rider has been added. -/
def Spec.PendulumsShown (s : Drawable) (o : GeometryOptions) (e : Extras) : Prop :=
  o.pendulum = true ∧ s.hasRider = false ∧ s.extras = some e

theorem pendulumSegments_spec {s : Drawable} {o : GeometryOptions}
    {segs : List (String × List ((ℝ × ℝ) × (ℝ × ℝ)))} (h : pendulumSegments s o = .ok segs) :
    ((¬∃ e, PendulumsShown s o e) → segs = []) ∧
    ∀ e, PendulumsShown s o e → List.Forall₂ (fun pr sg => sg.1 = pr.1 ∧
      MeasuredLines e.intercepts e.inertias s.par pr.1 pr.2 sg.2) e.slopes segs := by
  unfold pendulumSegments at h
  cases he : s.extras with
  | none =>
    rw [he] at h
    cases h
    exact ⟨fun _ => rfl, fun e h => by have := h.2.2; rw [he] at this; cases this⟩
  | some e =>
    rw [he] at h
    dsimp only at h
    by_cases hs : o.pendulum = true ∧ ¬s.hasRider = true
    · rw [if_pos hs] at h
      refine ⟨fun hn => absurd ⟨e, hs.1, by simpa using hs.2, he⟩ hn, ?_⟩
      intro e' h'
      have : e' = e := by have := h'.2.2; rw [he] at this; cases this; rfl
      subst this
      refine (mapM_ok_forall₂ h).imp ?_
      intro pr sg hps
      obtain ⟨l, hl, rfl⟩ := emap_ok hps
      exact ⟨rfl, partPendulums_spec hl⟩
    · rw [if_neg hs] at h
      cases h
      refine ⟨fun _ => rfl, fun e' h' => absurd ⟨h'.1, ?_⟩ hs⟩
      simp [h'.2.1]

/-- Is a polyline. -/
def Spec.isLine : Artist → Bool
  | .line .. => true
  | _ => false

theorem pendulumArtists_spec {colors : Dict String} {segs : List (String × List ((ℝ × ℝ) × (ℝ × ℝ)))}
    {l : List Artist} (h : pendulumArtists colors segs = .ok l) :
    l = segs.flatMap fun e => e.2.zipIdx.flatMap fun g =>
      [Artist.line [g.1.1, g.1.2] (colors.getD e.1 ""), Artist.text g.1.1 (toString (g.2 + 1))] := by
  unfold pendulumArtists at h
  obtain ⟨out, hout, rfl⟩ := emap_ok h
  have hF := mapM_ok_forall₂ hout
  clear hout h
  induction hF with
  | nil => simp
  | @cons e b es out hb _ ih =>
    rw [List.flatten_cons, List.flatten_append, ih, List.flatMap_cons]
    congr 1
    have hF := mapM_ok_forall₂ hb
    clear hb ih
    generalize e.2.zipIdx = gs at hF ⊢
    induction hF with
    | nil => simp
    | @cons g b gs out hb _ ih =>
      obtain ⟨c, hc, rfl⟩ := emap_ok hb
      rw [List.flatten_cons, ih, List.flatMap_cons, Dict.getD_eq_of_find? _ _ _ _ (get_ok hc)]

theorem stickFigure_spec {s : Drawable} {out : List Artist × ℝ} (h : stickFigure s = .ok out) :
    (s.human = none → out = ([], 0)) ∧
    ∀ j, s.human = some j → ∃ foot knee hip shoulder elbow fingers head,
      drawnJoint s j.foot = .ok foot ∧ drawnJoint s j.knee = .ok knee ∧ drawnJoint s j.hip = .ok hip ∧
      drawnJoint s j.shoulder = .ok shoulder ∧ drawnJoint s j.elbow = .ok elbow ∧
      drawnJoint s j.fingers = .ok fingers ∧ drawnJoint s j.head = .ok head ∧
      out = ([.line [foot, knee] "k", .line [knee, hip] "k", .line [hip, shoulder] "k",
        .line [shoulder, elbow] "k", .line [elbow, fingers] "k", .line [shoulder, head] "k"], head.2) := by
  unfold stickFigure at h
  constructor
  · intro hh; rw [hh] at h; cases h; rfl
  · intro j hj
    rw [hj] at h
    obtain ⟨l, hl, h⟩ := ebind_ok h
    obtain ⟨top, htop, rfl⟩ := emap_ok h
    have hF := mapM_ok_forall₂ hl
    cases hF with | cons h1 hF => ?_
    cases hF with | cons h2 hF => ?_
    cases hF with | cons h3 hF => ?_
    cases hF with | cons h4 hF => ?_
    cases hF with | cons h5 hF => ?_
    cases hF with | cons h6 hF => ?_
    cases hF
    have inv : ∀ {a b : Vec3} {l : List (ℝ × ℝ)}, limb s a b = .ok l →
        ∃ p q, drawnJoint s a = .ok p ∧ drawnJoint s b = .ok q ∧ l = [p, q] := by
      intro a b l h
      unfold limb at h
      obtain ⟨p, hp, h⟩ := ebind_ok h
      obtain ⟨q, hq, rfl⟩ := emap_ok h
      exact ⟨p, q, hp, hq, rfl⟩
    obtain ⟨foot, knee, a1, b1, rfl⟩ := inv h1
    obtain ⟨p, hip, a2, b2, rfl⟩ := inv h2
    obtain ⟨q, shoulder, a3, b3, rfl⟩ := inv h3
    obtain ⟨r, elbow, a4, b4, rfl⟩ := inv h4
    obtain ⟨t, fingers, a5, b5, rfl⟩ := inv h5
    obtain ⟨u, head, a6, b6, rfl⟩ := inv h6
    dsimp only at a1 a2 a3 a4 a5 a6 b1 b2 b3 b4 b5 b6
    rw [b1] at a2; cases a2
    rw [b2] at a3; cases a3
    rw [b3] at a4; cases a4
    rw [b4] at a5; cases a5
    rw [b3] at a6; cases a6
    rw [b6] at htop; cases htop
    exact ⟨_, _, _, _, _, _, _, a1, b1, b2, b3, b4, b5, b6, rfl⟩

theorem comMarks_noLine {par : Dict ℝ} {colors : Dict String} {parts : List String} {l : List Artist}
    (h : comMarks par colors parts = .ok l) : l.countP isLine = 0 := by
  have := comMarks_spec h
  dsimp only at this
  rw [this, List.countP_eq_zero]
  intro a ha
  obtain ⟨p, _, ha⟩ := List.mem_flatMap.1 ha
  simp only [comMark, List.mem_cons, List.not_mem_nil, or_false] at ha
  rcases ha with rfl | rfl | rfl | rfl <;> simp [isLine]

/-- **C118.** The pendulum axes are drawn exactly if they are asked for, were measured and no rider has
been added: then each part has one numbered line in its colour for each of its measurements, on the
measured line, centred next to the mass centre and as long as the inertia; no other lines are drawn
than these, the ground, the frame, the steer axis and the six of the rider. -/
theorem C118_pendulums (eig : Mat3 → Vec3 × Mat3) (argsort : Vec3 → Fin 3 → Fin 3)
    (cmap : ℝ → String) (s : Drawable) (o : GeometryOptions) (fig : GeometryFigure)
    (h : plotBicycleGeometry eig argsort cmap s o = .ok fig) :
    ∃ parts, drawnParts s.par = .ok parts ∧
    ∃ (segs : List (String × List ((ℝ × ℝ) × (ℝ × ℝ)))) (before after : List Artist),
      ((¬∃ e, PendulumsShown s o e) → segs = []) ∧
      (∀ e, PendulumsShown s o e → List.Forall₂ (fun pr sg => sg.1 = pr.1 ∧
        MeasuredLines e.intercepts e.inertias s.par pr.1 pr.2 sg.2) e.slopes segs) ∧
      fig.artists = before ++ (segs.flatMap fun e => e.2.zipIdx.flatMap fun g =>
        [Artist.line [g.1.1, g.1.2] ((partColors cmap parts).getD e.1 ""),
         Artist.text g.1.1 (toString (g.2 + 1))]) ++ after ∧
      fig.artists.countP isLine = 3 + (segs.map fun e => e.2.length).sum +
        (if s.human.isSome then 6 else 0) := by
  obtain ⟨parts, ells, ellipses, segs, pens, coms, stick, h1, h2, h3, h4, h5, h6, h7, hfig, _⟩ := plot_pieces h
  obtain ⟨p1, p2⟩ := pendulumSegments_spec h4
  have hpens := pendulumArtists_spec h5
  have hsplit : ∀ a b c d : List Artist, a ++ b ++ c ++ d = a ++ b ++ (c ++ d) := by
    intro a b c d; simp
  rw [List.append_assoc (ellipses ++ _ ++ pens)] at hfig
  refine ⟨parts, h1, segs, ?_⟩
  rw [← hpens]
  obtain ⟨before, after, hba⟩ : ∃ b a, fig.artists = b ++ pens ++ a := ⟨_, _, hfig⟩
  refine ⟨before, after, p1, p2, hba, ?_⟩
  · have c1 : ellipses.countP isLine = 0 := by
      rw [List.countP_eq_zero]
      intro a ha
      obtain ⟨e, _, he⟩ := mapM_ok_mem h3 ha
      obtain ⟨c, _, rfl⟩ := emap_ok he
      simp [isLine]
    have c2 : pens.countP isLine = (segs.map fun e => e.2.length).sum := by
      rw [hpens]
      clear hpens h5 p1 p2 hfig h4
      induction segs with
      | nil => simp
      | cons e segs ih =>
        rw [List.flatMap_cons, List.countP_append, ih, List.map_cons, List.sum_cons]
        congr 1
        generalize hz : e.2.zipIdx = gs
        have hl : e.2.length = gs.length := by rw [← hz]; simp
        rw [hl]
        clear hz hl
        induction gs with
        | nil => simp
        | cons g gs ih => rw [List.flatMap_cons, List.countP_append, ih]; simp [isLine, List.countP_cons]; omega
    have c3 : coms.countP isLine = 0 := by
      by_cases hc : o.centerOfMass
      · rw [if_pos hc] at h6; exact comMarks_noLine h6
      · rw [if_neg hc] at h6; cases h6; rfl
    have c4 : stick.1.countP isLine = if s.human.isSome then 6 else 0 := by
      obtain ⟨q1, q2⟩ := stickFigure_spec h7
      cases hh : s.human with
      | none => rw [q1 hh]; simp
      | some j =>
        obtain ⟨_, _, _, _, _, _, _, _, _, _, _, _, _, _, hs⟩ := q2 j hh
        rw [hs]
        simp [isLine, List.countP_cons]
    rw [hfig]
    simp only [List.countP_append, c1, c2, c3, c4]
    simp [isLine, List.countP_cons]
    try omega

/-! ## Rider and limits -/

/-- **C118.** A rider is drawn as a connected figure: foot, knee, hip, shoulder, elbow and fingers in a
row, and the head joined to the shoulder, each where the rider's joint is on the bicycle, seen from
the side. -/
theorem C118_rider (eig : Mat3 → Vec3 × Mat3) (argsort : Vec3 → Fin 3 → Fin 3)
    (cmap : ℝ → String) (s : Drawable) (o : GeometryOptions) (fig : GeometryFigure)
    (h : plotBicycleGeometry eig argsort cmap s o = .ok fig) (j : Joints) (hj : s.human = some j) :
    ∃ foot knee hip shoulder elbow fingers head : Vec3,
      yeadonVecToBicycleVec j.foot s.measured s.par = .ok foot ∧
      yeadonVecToBicycleVec j.knee s.measured s.par = .ok knee ∧
      yeadonVecToBicycleVec j.hip s.measured s.par = .ok hip ∧
      yeadonVecToBicycleVec j.shoulder s.measured s.par = .ok shoulder ∧
      yeadonVecToBicycleVec j.elbow s.measured s.par = .ok elbow ∧
      yeadonVecToBicycleVec j.fingers s.measured s.par = .ok fingers ∧
      yeadonVecToBicycleVec j.head s.measured s.par = .ok head ∧
      ∃ before, fig.artists = before ++
        [.line [(foot 0, -foot 2), (knee 0, -knee 2)] "k", .line [(knee 0, -knee 2), (hip 0, -hip 2)] "k",
         .line [(hip 0, -hip 2), (shoulder 0, -shoulder 2)] "k",
         .line [(shoulder 0, -shoulder 2), (elbow 0, -elbow 2)] "k",
         .line [(elbow 0, -elbow 2), (fingers 0, -fingers 2)] "k",
         .line [(shoulder 0, -shoulder 2), (head 0, -head 2)] "k"] := by
  obtain ⟨parts, ells, ellipses, segs, pens, coms, stick, h1, h2, h3, h4, h5, h6, h7, hfig, _⟩ := plot_pieces h
  obtain ⟨foot, knee, hip, shoulder, elbow, fingers, head, a1, a2, a3, a4, a5, a6, a7, hs⟩ :=
    (stickFigure_spec h7).2 j hj
  obtain ⟨v1, b1, rfl⟩ := emap_ok a1
  obtain ⟨v2, b2, rfl⟩ := emap_ok a2
  obtain ⟨v3, b3, rfl⟩ := emap_ok a3
  obtain ⟨v4, b4, rfl⟩ := emap_ok a4
  obtain ⟨v5, b5, rfl⟩ := emap_ok a5
  obtain ⟨v6, b6, rfl⟩ := emap_ok a6
  obtain ⟨v7, b7, rfl⟩ := emap_ok a7
  rw [hs] at hfig
  exact ⟨v1, v2, v3, v4, v5, v6, v7, b1, b2, b3, b4, b5, b6, b7, Exists.intro _ hfig⟩

theorem foldr_max_ge (l : List ℝ) (d x : ℝ) (h : x ∈ l) : x ≤ l.foldr max d := by
  induction l with
  | nil => cases h
  | cons a l ih =>
    rcases List.mem_cons.1 h with rfl | h
    · exact le_max_left _ _
    · exact (ih h).trans (le_max_right _ _)

theorem foldr_min_le (l : List ℝ) (d x : ℝ) (h : x ∈ l) : l.foldr min d ≤ x := by
  induction l with
  | nil => cases h
  | cons a l ih =>
    rcases List.mem_cons.1 h with rfl | h
    · exact min_le_left _ _
    · exact (min_le_right _ _).trans (ih h)

theorem foldr_max_mem (l : List ℝ) (h : l ≠ []) : l.foldr max (l.headD 0) ∈ l := by
  have key : ∀ (l : List ℝ) (d : ℝ), l.foldr max d = d ∨ l.foldr max d ∈ l := by
    intro l d
    induction l with
    | nil => exact Or.inl rfl
    | cons a l ih =>
      rcases max_choice a (l.foldr max d) with h | h
      · right; rw [List.foldr_cons, h]; simp
      · rcases ih with ih | ih
        · left; rw [List.foldr_cons, h, ih]
        · right; rw [List.foldr_cons, h]; exact List.mem_cons_of_mem _ ih
  cases l with
  | nil => exact absurd rfl h
  | cons a l =>
    rcases key (a :: l) a with h' | h'
    · simp only [List.headD_cons]; rw [h']; simp
    · exact h'

theorem foldr_min_mem (l : List ℝ) (h : l ≠ []) : l.foldr min (l.headD 0) ∈ l := by
  have key : ∀ (l : List ℝ) (d : ℝ), l.foldr min d = d ∨ l.foldr min d ∈ l := by
    intro l d
    induction l with
    | nil => exact Or.inl rfl
    | cons a l ih =>
      rcases min_choice a (l.foldr min d) with h | h
      · right; rw [List.foldr_cons, h]; simp
      · rcases ih with ih | ih
        · left; rw [List.foldr_cons, h, ih]
        · right; rw [List.foldr_cons, h]; exact List.mem_cons_of_mem _ ih
  cases l with
  | nil => exact absurd rfl h
  | cons a l =>
    rcases key (a :: l) a with h' | h'
    · simp only [List.headD_cons]; rw [h']; simp
    · exact h'

/-- **C118.** The y limits are whole metres that enclose the ground, both wheels, the frame and the
rider's head, and the upper one is the lowest that does. -/
theorem C118_limits (eig : Mat3 → Vec3 × Mat3) (argsort : Vec3 → Fin 3 → Fin 3)
    (cmap : ℝ → String) (s : Drawable) (o : GeometryOptions) (fig : GeometryFigure)
    (h : plotBicycleGeometry eig argsort cmap s o = .ok fig) :
    ∃ (lo hi : ℤ) (frame : List (ℝ × ℝ)) (head : ℝ),
      fig.ylim = ((lo : ℝ), (hi : ℝ)) ∧ Artist.line frame "k" ∈ fig.artists ∧ frame.length = 4 ∧
      (s.human = none → head = 0) ∧
      (∀ j, s.human = some j → ∃ r, yeadonVecToBicycleVec j.head s.measured s.par = .ok r ∧ head = -r 2) ∧
      lo ≤ 0 ∧ 2 * s.par.getD "rR" 0 ≤ hi ∧ 2 * s.par.getD "rF" 0 ≤ hi ∧ head ≤ hi ∧
      (∀ q ∈ frame, (lo : ℝ) ≤ q.2 ∧ q.2 ≤ hi) ∧
      ((hi : ℝ) - 1 < 2 * s.par.getD "rR" 0 ∨ (hi : ℝ) - 1 < 2 * s.par.getD "rF" 0 ∨
        (hi : ℝ) - 1 < head ∨ ∃ q ∈ frame, (hi : ℝ) - 1 < q.2) ∧
      (lo < 0 → ∃ q ∈ frame, q.2 < (lo : ℝ) + 1) := by
  obtain ⟨parts, ells, ellipses, segs, pens, coms, stick, h1, h2, h3, h4, h5, h6, h7, hfig, hlim⟩ := plot_pieces h
  set frame := (frameAndAxis s.par).1 with hframe
  have hlen : frame.length = 4 := rfl
  set ys := frame.map Prod.snd with hys
  have hne : ys ≠ [] := by intro h'; have := congrArg List.length h'; simp [hys, hlen] at this
  set mx := ys.foldr max (ys.headD 0) with hmx
  set mn := ys.foldr min (ys.headD 0) with hmn
  have hmax : ∀ q ∈ frame, q.2 ≤ mx := fun q hq => foldr_max_ge _ _ _ (List.mem_map_of_mem hq)
  have hmin : ∀ q ∈ frame, mn ≤ q.2 := fun q hq => foldr_min_le _ _ _ (List.mem_map_of_mem hq)
  obtain ⟨qmax, hqmax, hqmax'⟩ := List.mem_map.1 (foldr_max_mem ys hne)
  obtain ⟨qmin, hqmin, hqmin'⟩ := List.mem_map.1 (foldr_min_mem ys hne)
  obtain ⟨q1, q2⟩ := stickFigure_spec h7
  set M := max (max (2 * s.par.getD "rR" 0) (2 * s.par.getD "rF" 0)) (max mx stick.2) with hM
  have hceil := Int.le_ceil M
  have hceil' := Int.ceil_lt_add_one M
  refine ⟨if 0 ≤ mn then 0 else -⌈|mn|⌉, ⌈M⌉, frame, stick.2, ?_, ?_, hlen, ?_, ?_, ?_, ?_, ?_, ?_, ?_, ?_, ?_⟩
  · rw [hlim]
    unfold yLimits
    dsimp only
    rw [← hys, ← hmx, ← hmn]
    by_cases h0 : 0 ≤ mn
    · rw [if_pos h0, if_pos h0, min_eq_left h0]
      simp [hM]
    · rw [if_neg h0, if_neg h0]
      simp [hM]
  · rw [hfig]; simp [hframe]
  · intro hh; rw [q1 hh]
  · intro j hj
    obtain ⟨_, _, _, _, _, _, hd, _, _, _, _, _, _, a7, hs⟩ := q2 j hj
    obtain ⟨r, hr, rfl⟩ := emap_ok a7
    exact ⟨r, hr, by rw [hs]⟩
  · split
    · exact le_rfl
    · have : (0 : ℤ) ≤ ⌈|mn|⌉ := Int.ceil_nonneg (abs_nonneg _)
      omega
  · exact ((le_max_left _ _).trans (le_max_left _ _)).trans hceil
  · exact ((le_max_right _ _).trans (le_max_left _ _)).trans hceil
  · exact ((le_max_right _ _).trans (le_max_right _ _)).trans hceil
  · intro q hq
    refine ⟨?_, ((hmax q hq).trans ((le_max_left _ _).trans (le_max_right _ _))).trans hceil⟩
    by_cases h0 : 0 ≤ mn
    · rw [if_pos h0]; push_cast; exact h0.trans (hmin q hq)
    · rw [if_neg h0]
      push_cast
      have := Int.le_ceil |mn|
      rw [abs_of_neg (not_le.1 h0)] at this ⊢
      linarith [hmin q hq]
  · have hlt : (⌈M⌉ : ℝ) - 1 < M := by linarith
    rcases lt_max_iff.1 (hM ▸ hlt) with h' | h'
    · rcases lt_max_iff.1 h' with h' | h'
      · exact Or.inl h'
      · exact Or.inr (Or.inl h')
    · rcases lt_max_iff.1 h' with h' | h'
      · exact Or.inr (Or.inr (Or.inr ⟨qmax, hqmax, by rw [hqmax']; exact h'⟩))
      · exact Or.inr (Or.inr (Or.inl h'))
  · intro hneg
    refine ⟨qmin, hqmin, ?_⟩
    rw [hqmin']
    by_cases h0 : 0 ≤ mn
    · rw [if_pos h0] at hneg; exact absurd hneg (lt_irrefl 0)
    · rw [if_neg h0]
      push_cast
      have := Int.ceil_lt_add_one |mn|
      rw [abs_of_neg (not_le.1 h0)] at this ⊢
      change mn < _
      linarith

end BP
