import Verif.Props.GeometryPlot

/-!
# C118: the inertia ellipses of the geometry plot, and when the plot can be made
-/

set_option linter.unusedSimpArgs false

namespace BP

open Real Matrix Spec

theorem partColors_has (cmap : ℝ → String) (parts : List String) (part : String) (hp : part ∈ parts) :
    (partColors cmap parts).has part = true := by
  unfold partColors
  rw [Dict.has, foldl_set_find?]
  cases hf : parts.zipIdx.reverse.find? fun e => e.1 = part with
  | some e => simp
  | none =>
    exfalso
    rw [List.find?_eq_none] at hf
    obtain ⟨i, hi, rfl⟩ := List.getElem_of_mem hp
    have := hf (parts[i], i) (by simp [List.mem_reverse, List.mk_mem_zipIdx_iff_getElem?, hi])
    simp at this

/-- The principal moments and axes of a part, as `principal_axes` returns them. -/
noncomputable def partAxes (eig : Mat3 → Vec3 × Mat3) (argsort : Vec3 → Fin 3 → Fin 3) (I : Mat3) :
    Vec3 × Mat3 := principalAxes argsort (eig I).1 (eig I).2

theorem partCenter_ok {par : Dict ℝ} {part : String} {c : ℝ × ℝ} (h : partCenter par part = .ok c) :
    c = drawnCenter par part := by
  unfold partCenter at h
  unfold drawnCenter
  by_cases h1 : part = "R"
  · rw [if_pos h1] at h
    obtain ⟨r, hr, rfl⟩ := emap_ok h
    simp [h1, get_getD hr]
  · rw [if_neg h1] at h
    by_cases h2 : part = "F" ∨ part = "D"
    · rw [if_pos h2] at h
      obtain ⟨w, hw, h⟩ := ebind_ok h
      obtain ⟨r, hr, rfl⟩ := emap_ok h
      simp [h1, h2, get_getD hr, get_getD hw]
    · rw [if_neg h2] at h
      obtain ⟨w, hw, h⟩ := ebind_ok h
      obtain ⟨r, hr, rfl⟩ := emap_ok h
      simp [h1, h2, get_getD hr, get_getD hw]

theorem allEllipses_spec {eig : Mat3 → Vec3 × Mat3} {argsort : Vec3 → Fin 3 → Fin 3} {par : Dict ℝ} :
    ∀ {parts : List String} {y : Option (Fin 3)} {l : List (String × (ℝ × ℝ) × (ℝ × ℝ × ℝ))},
    allEllipses eig argsort par y parts = .ok l →
    List.Forall₂ (fun part e => e.1 = part ∧ e.2.1 = drawnCenter par part ∧
      ∀ I, partInertiaTensor par part = .ok I → ∀ yy, ellipseYRow (partAxes eig argsort I).2 = some yy →
        e.2.2 = ellipseSize (partAxes eig argsort I).1 (partAxes eig argsort I).2 yy) parts l := by
  intro parts
  induction parts with
  | nil => intro y l h; cases h; exact .nil
  | cons part parts ih =>
    intro y l h
    unfold allEllipses at h
    obtain ⟨e, he, h⟩ := ebind_ok h
    obtain ⟨rest, hrest, rfl⟩ := emap_ok h
    refine .cons ⟨rfl, ?_⟩ (ih hrest)
    unfold partEllipse at he
    obtain ⟨I, hI, he⟩ := ebind_ok he
    dsimp only at he
    obtain ⟨c, hc, he⟩ := ebind_ok he
    dsimp only
    cases hy : (ellipseYRow (partAxes eig argsort I).2).or y with
    | none =>
      unfold partAxes at hy
      rw [hy] at he; cases he
    | some yy =>
      have hy' := hy
      unfold partAxes at hy'
      rw [hy'] at he
      cases he
      refine ⟨partCenter_ok hc, ?_⟩
      intro I' hI' yy' hyy'
      rw [hI] at hI'
      cases hI'
      rw [hyy'] at hy
      cases hy
      rfl

/-- Is the artist an ellipse? -/
def Spec.isEllipse : Artist → Bool
  | .ellipse .. => true
  | _ => false

/-- **C118.** With `inertiaEllipse` the figure starts with one ellipse for each part, in order, about the
part's mass centre and in its colour, and has no other ellipse; without the option it has none. -/
theorem C118_ellipses (eig : Mat3 → Vec3 × Mat3) (argsort : Vec3 → Fin 3 → Fin 3)
    (cmap : ℝ → String) (s : Drawable) (o : GeometryOptions) (fig : GeometryFigure)
    (h : plotBicycleGeometry eig argsort cmap s o = .ok fig) :
    ∃ parts, drawnParts s.par = .ok parts ∧ ∃ ells rest : List Artist, fig.artists = ells ++ rest ∧
      rest.countP isEllipse = 0 ∧ (o.inertiaEllipse = false → ells = []) ∧
      (o.inertiaEllipse = true → List.Forall₂ (fun part a => ∃ width height angle color,
        (partColors cmap parts).find? part = some color ∧
        a = Artist.ellipse ⟨(drawnCenter s.par part).1, (drawnCenter s.par part).2, width, height, angle⟩ color ∧
        ∀ I, partInertiaTensor s.par part = .ok I → ∀ y, ellipseYRow (partAxes eig argsort I).2 = some y →
          (width, height, angle) = ellipseSize (partAxes eig argsort I).1 (partAxes eig argsort I).2 y)
        parts ells) := by
  obtain ⟨parts, ells, ellipses, segs, pens, coms, stick, h1, h2, h3, h4, h5, h6, h7, hfig, _⟩ := plot_pieces h
  refine ⟨parts, h1, ellipses, ?_⟩
  have hpens := pendulumArtists_spec h5
  simp only [List.append_assoc] at hfig
  obtain ⟨rest, hrest⟩ : ∃ r, r = [Artist.line [(-s.par.getD "rR" 0, 0), (s.par.getD "w" 0 + s.par.getD "rF" 0, 0)] "k",
         .circle (0, s.par.getD "rR" 0) (s.par.getD "rR" 0) "",
         .circle (s.par.getD "w" 0, s.par.getD "rF" 0) (s.par.getD "rF" 0) "",
         .line (frameAndAxis s.par).1 "k", .line (frameAndAxis s.par).2 "k"] ++ (pens ++ (coms ++ stick.1)) := ⟨_, rfl⟩
  rw [← hrest] at hfig
  refine ⟨rest, hfig, ?_, ?_, ?_⟩
  · have c2 : pens.countP isEllipse = 0 := by
      rw [List.countP_eq_zero]
      intro a ha
      rw [hpens] at ha
      obtain ⟨e, _, ha⟩ := List.mem_flatMap.1 ha
      obtain ⟨g, _, ha⟩ := List.mem_flatMap.1 ha
      simp only [List.mem_cons, List.not_mem_nil, or_false] at ha
      rcases ha with rfl | rfl <;> simp [isEllipse]
    have c3 : coms.countP isEllipse = 0 := by
      by_cases hc : o.centerOfMass
      · rw [if_pos hc] at h6
        have := comMarks_spec h6
        dsimp only at this
        rw [this, List.countP_eq_zero]
        intro a ha
        obtain ⟨p, _, ha⟩ := List.mem_flatMap.1 ha
        simp only [comMark, List.mem_cons, List.not_mem_nil, or_false] at ha
        rcases ha with rfl | rfl | rfl | rfl <;> simp [isEllipse]
      · rw [if_neg hc] at h6; cases h6; rfl
    have c4 : stick.1.countP isEllipse = 0 := by
      obtain ⟨q1, q2⟩ := stickFigure_spec h7
      cases hh : s.human with
      | none => rw [q1 hh]; simp
      | some j =>
        obtain ⟨_, _, _, _, _, _, _, _, _, _, _, _, _, _, hs⟩ := q2 j hh
        rw [hs]
        simp [isEllipse, List.countP_cons]
    rw [hrest]
    simp only [List.countP_append, c2, c3, c4]
    simp [isEllipse, List.countP_cons]
  · intro ho
    rw [ho] at h2
    cases h2
    cases h3
    rfl
  · intro ho
    rw [ho, if_pos rfl] at h2
    have hs := allEllipses_spec h2
    have hm := mapM_ok_forall₂ h3
    clear h2 h3 hfig
    generalize partColors cmap parts = colors at *
    clear h1 h6 h5 hrest hpens
    induction hs generalizing ellipses with
    | nil => cases hm; exact .nil
    | @cons part e parts ells he _ ih =>
      cases hm with
      | cons hb hm =>
        obtain ⟨c, hc, rfl⟩ := emap_ok hb
        refine .cons ?_ (ih _ hm)
        obtain ⟨e1, e2, e3⟩ := he
        subst e1
        refine ⟨e.2.2.1, e.2.2.2.1, e.2.2.2.2, c, get_ok hc, ?_, ?_⟩
        · rw [e2]
        · intro I hI y hy
          rw [← e3 I hI y hy]

/-! ## The shape of the ellipse -/

/-- `eig` returned unit eigenvectors in independent directions for the tensor `I`. -/
def Spec.EigOK (eig : Mat3 → Vec3 × Mat3) (I : Mat3) : Prop :=
  (∀ i, I *ᵥ (fun r => (eig I).2 r i) = (eig I).1 i • fun r => (eig I).2 r i) ∧
  (∀ i, ∑ r, (eig I).2 r i ^ 2 = 1) ∧ (eig I).2.det ≠ 0

/-- Displacement in the bicycle's frame, z down, of a drawn point from the centre of an ellipse. -/
noncomputable def Spec.displacement (e : EllipsePatch) (t : ℝ) : Vec3 :=
  ![(drawnPoint e t).1 - e.cx, 0, -((drawnPoint e t).2 - e.cz)]

/-- the value of the quadratic form of a tensor without xy and yz products on a displacement -/
theorem quad_form (I : Mat3) (a b c y : ℝ) (hI : I = !![a, 0, b; 0, y, 0; b, 0, c]) (u v : ℝ) :
    ![u, 0, v] ⬝ᵥ (I *ᵥ ![u, 0, v]) = a * u ^ 2 + 2 * b * u * v + c * v ^ 2 := by
  subst hI
  simp [Matrix.mulVec, dotProduct, Fin.sum_univ_three]
  ring

/-- every part's tensor has that form -/
theorem tensor_form {par : Dict ℝ} {part : String} {I : Mat3} (h : partInertiaTensor par part = .ok I) :
    ∃ a b c y, I = !![a, 0, b; 0, y, 0; b, 0, c] := by
  unfold partInertiaTensor at h
  dsimp only at h
  split at h
  · split at h
    · cases h
    · cases h; exact ⟨_, _, _, _, rfl⟩
  · split at h
    · cases h
    · cases h; exact ⟨_, _, _, _, rfl⟩

/-- the two directions that are left when the y row is taken out -/
theorem in_plane {a b c yy : ℝ} {P : Vec3 × Mat3} {y : Fin 3}
    (heig : ∀ i, (!![a, 0, b; 0, yy, 0; b, 0, c] : Mat3) *ᵥ P.2 i = P.1 i • P.2 i)
    (hunit : ∀ i, ∑ r, P.2 i r ^ 2 = 1) (hdet : P.2.det ≠ 0) (hrow : IsYRow P.2 y)
    (hother : ∀ j, j ≠ y → P.2 j 1 = 0) :
    let x := P.2 (y.succAbove 0)
    x 0 ^ 2 + x 2 ^ 2 = 1 ∧
      a * x 0 + b * x 2 = P.1 (y.succAbove 0) * x 0 ∧ b * x 0 + c * x 2 = P.1 (y.succAbove 0) * x 2 ∧
      a * -x 2 + b * x 0 = P.1 (y.succAbove 1) * -x 2 ∧ b * -x 2 + c * x 0 = P.1 (y.succAbove 1) * x 0 := by
  intro x
  have hx1 : x 1 = 0 := hother _ (Fin.succAbove_ne y 0)
  have hz1 : P.2 (y.succAbove 1) 1 = 0 := hother _ (Fin.succAbove_ne y 1)
  have comp : ∀ i, a * P.2 i 0 + b * P.2 i 2 = P.1 i * P.2 i 0 ∧ b * P.2 i 0 + c * P.2 i 2 = P.1 i * P.2 i 2 := by
    intro i
    have h0 := congrFun (heig i) 0
    have h2 := congrFun (heig i) 2
    simp [Matrix.mulVec, dotProduct, Fin.sum_univ_three] at h0 h2
    exact ⟨h0, h2⟩
  have hdet' : x 0 * P.2 (y.succAbove 1) 2 - P.2 (y.succAbove 1) 0 * x 2 ≠ 0 := by
    intro h0
    apply hdet
    have r0 := hrow 0 (by decide)
    have r2 := hrow 2 (by decide)
    rw [Matrix.det_fin_three]
    fin_cases y <;> simp [x, Fin.succAbove] at * <;> rw [r0, r2, hx1, hz1] <;>
      first
      | linear_combination (-P.2 0 1) * h0
      | linear_combination P.2 1 1 * h0
      | linear_combination (-P.2 2 1) * h0
  have hu := hunit (y.succAbove 0)
  rw [Fin.sum_univ_three] at hu
  obtain ⟨e1, e2⟩ := comp (y.succAbove 0)
  obtain ⟨e3, e4⟩ := comp (y.succAbove 1)
  obtain ⟨e5, e6⟩ := eig_sym e1 e2 e3 e4 hdet'
  refine ⟨?_, e1, e2, e5, e6⟩
  change P.2 (y.succAbove 0) 1 = 0 at hx1
  rw [hx1] at hu
  linarith

theorem ellipse_displacement (cx cz c0 s0 Imin Imax t : ℝ) (hu : c0 ^ 2 + s0 ^ 2 = 1) (hmin : 0 < Imin) (hmax : 0 < Imax)
    (e : EllipsePatch) (he : e = ⟨cx, cz, Imax * (1 / 2 / √Imin * √Imin), Imax * (1 / 2 / √Imax * √Imin),
      -(arccos c0 * 180 / π)⟩) :
    e.width = Imax / 2 ∧ e.height = √(Imin * Imax) / 2 ∧
    displacement e t = ![e.width / 2 * cos t * c0 + e.height / 2 * sin t * |s0|, 0,
      e.width / 2 * cos t * |s0| - e.height / 2 * sin t * c0] := by
  have hth : e.angle * π / 180 = -arccos c0 := by
    rw [he]
    have := Real.pi_ne_zero
    field_simp
  have hc : cos (arccos c0) = c0 := by
    apply Real.cos_arccos <;> nlinarith [sq_nonneg s0]
  have hs : sin (arccos c0) = |s0| := by
    rw [Real.sin_arccos, ← Real.sqrt_sq_eq_abs]
    congr 1
    linarith
  have h1 : √Imin ≠ 0 := (Real.sqrt_pos.2 hmin).ne'
  have h2 : √Imax ≠ 0 := (Real.sqrt_pos.2 hmax).ne'
  have h3 : √Imax * √Imax = Imax := Real.mul_self_sqrt hmax.le
  refine ⟨?_, ?_, ?_⟩
  · rw [he]
    field_simp
  · rw [he, Real.sqrt_mul hmin.le]
    field_simp
    nlinarith
  · unfold displacement drawnPoint
    dsimp only
    rw [hth, Real.cos_neg, Real.sin_neg, hc, hs]
    ext i
    fin_cases i <;> simp <;> ring

/-- the artist of a part, and its principal directions in the plane -/
theorem drawn_ellipse {eig : Mat3 → Vec3 × Mat3} {argsort : Vec3 → Fin 3 → Fin 3}
    (hbij : ∀ v : Vec3, Function.Bijective (argsort v))
    (hsort : ∀ v : Vec3, Monotone fun i => v (argsort v i))
    {cmap : ℝ → String} {s : Drawable} {o : GeometryOptions} {fig : GeometryFigure}
    (h : plotBicycleGeometry eig argsort cmap s o = .ok fig) (ho : o.inertiaEllipse = true)
    {parts : List String} (hparts : drawnParts s.par = .ok parts) {i : ℕ} {part : String} (hi : parts[i]? = some part)
    {I : Mat3} (hI : partInertiaTensor s.par part = .ok I) (hE : EigOK eig I) (hpos : ∀ i, 0 < (eig I).1 i)
    {y : Fin 3} (hy : ellipseYRow (principalAxes argsort (eig I).1 (eig I).2).2 = some y)
    (hrow : IsYRow (principalAxes argsort (eig I).1 (eig I).2).2 y)
    (hother : ∀ j, j ≠ y → (principalAxes argsort (eig I).1 (eig I).2).2 j 1 = 0) :
    ∃ a b c yy Imin Imax c0 s0, I = !![a, 0, b; 0, yy, 0; b, 0, c] ∧ 0 < Imin ∧ Imin ≤ Imax ∧
      c0 = (principalAxes argsort (eig I).1 (eig I).2).2 (y.succAbove 0) 0 ∧
      s0 = (principalAxes argsort (eig I).1 (eig I).2).2 (y.succAbove 0) 2 ∧
      Imin = (principalAxes argsort (eig I).1 (eig I).2).1 (y.succAbove 0) ∧
      Imax = (principalAxes argsort (eig I).1 (eig I).2).1 (y.succAbove 1) ∧
      c0 ^ 2 + s0 ^ 2 = 1 ∧ a * c0 + b * s0 = Imin * c0 ∧ b * c0 + c * s0 = Imin * s0 ∧
      a * -s0 + b * c0 = Imax * -s0 ∧ b * -s0 + c * c0 = Imax * c0 ∧
      ∃ color, fig.artists[i]? = some (Artist.ellipse ⟨(drawnCenter s.par part).1, (drawnCenter s.par part).2,
        Imax * (1 / 2 / √Imin * √Imin), Imax * (1 / 2 / √Imax * √Imin), -(arccos c0 * 180 / π)⟩ color) := by
  obtain ⟨a, b, c, yy, hform⟩ := tensor_form hI
  obtain ⟨hE1, hE2, hE3⟩ := hE
  set P := principalAxes argsort (eig I).1 (eig I).2 with hP
  obtain ⟨hmono, heig, σ, hσ⟩ := C26_principal_axes_sorted argsort hbij hsort I _ _ hE1
  rw [← hP] at hmono heig hσ
  have hunit : ∀ i, ∑ r, P.2 i r ^ 2 = 1 := by intro i; rw [(hσ i).2]; exact hE2 _
  have hdet : P.2.det ≠ 0 := by
    have : P.2 = ((eig I).2ᵀ).submatrix σ id := by
      ext i j; rw [(hσ i).2]; rfl
    rw [this, Matrix.det_permute, Matrix.det_transpose]
    refine mul_ne_zero ?_ hE3
    rcases Int.units_eq_one_or (Equiv.Perm.sign σ) with h' | h' <;> rw [h'] <;> simp
  have hp : ∀ i, 0 < P.1 i := by intro i; rw [(hσ i).1]; exact hpos _
  rw [hform] at heig
  obtain ⟨q1, q2, q3, q4, q5⟩ := in_plane heig hunit hdet hrow hother
  obtain ⟨parts', hparts', ells, rest, hart, _, _, hell⟩ := C118_ellipses eig argsort cmap s o fig h
  rw [hparts] at hparts'
  cases hparts'
  obtain ⟨hlen, hget⟩ := forall₂_getElem? (hell ho)
  obtain ⟨art, hart', width, height, angle, color, _, rfl, hsz⟩ := hget i part hi
  have hsz := hsz I hI y hy
  refine ⟨a, b, c, yy, _, _, _, _, hform, hp (y.succAbove 0), hmono ?_, rfl, rfl, rfl, rfl, q1, q2, q3, q4, q5, color, ?_⟩
  · rw [Fin.succAbove_le_succAbove_iff]; decide
  · have hil : i < ells.length := (List.getElem?_eq_some_iff.1 hart').1
    rw [hart, List.getElem?_append_left hil, hart']
    unfold ellipseSize partAxes at hsz
    simp only [Prod.mk.injEq] at hsz
    obtain ⟨rfl, rfl, rfl⟩ := hsz
    rfl

/-- **C118, partial.** The ellipse of a part is its momental ellipse: the moment of inertia about an axis
in the symmetry plane through the mass centre times the square of the drawn radius in that direction
is the same for all axes (`d ⬝ᵥ I *ᵥ d` is the moment about the direction of `d` times `|d|²`), and
the long axis is half as many metres long as the larger of the two moments in the plane.  Missing: it
is proved if `eig` returned the y axis where the code finds it and a first axis in the plane that
does not point up; otherwise the claim fails, see `C118_ellipse_mirrored`, `C82_diagonal_tensor_wrong_row`
and `C118_unbound`. -/
theorem C118_ellipse_shape_partial (eig : Mat3 → Vec3 × Mat3) (argsort : Vec3 → Fin 3 → Fin 3)
    (hbij : ∀ v : Vec3, Function.Bijective (argsort v))
    (hsort : ∀ v : Vec3, Monotone fun i => v (argsort v i))
    (cmap : ℝ → String) (s : Drawable) (o : GeometryOptions) (fig : GeometryFigure)
    (h : plotBicycleGeometry eig argsort cmap s o = .ok fig) (ho : o.inertiaEllipse = true)
    (parts : List String) (hparts : drawnParts s.par = .ok parts) (i : ℕ) (part : String) (hi : parts[i]? = some part)
    (I : Mat3) (hI : partInertiaTensor s.par part = .ok I) (hE : EigOK eig I) (hpos : ∀ i, 0 < (eig I).1 i)
    (y : Fin 3) (hy : ellipseYRow (principalAxes argsort (eig I).1 (eig I).2).2 = some y)
    (hrow : IsYRow (principalAxes argsort (eig I).1 (eig I).2).2 y)
    (hother : ∀ j, j ≠ y → (principalAxes argsort (eig I).1 (eig I).2).2 j 1 = 0)
    (hz : 0 ≤ (principalAxes argsort (eig I).1 (eig I).2).2 (y.succAbove 0) 2) :
    ∃ e color, fig.artists[i]? = some (Artist.ellipse e color) ∧
      (∃ k, 0 < k ∧ ∀ t, displacement e t ⬝ᵥ (I *ᵥ displacement e t) = k) ∧
      e.height ≤ e.width ∧
      ∃ Imin Imax, Imin ≤ Imax ∧ e.width = Imax / 2 ∧
        ∃ p q : Vec3, I *ᵥ p = Imin • p ∧ I *ᵥ q = Imax • q ∧ p 1 = 0 ∧ q 1 = 0 ∧ p 0 * q 2 - q 0 * p 2 ≠ 0 := by
  obtain ⟨a, b, c, yy, Imin, Imax, c0, s0, hform, hmin, hle, hc0, hs0, _, _, hu, q2, q3, q4, q5, color, hart⟩ :=
    drawn_ellipse hbij hsort h ho hparts hi hI hE hpos hy hrow hother
  rw [← hs0] at hz
  have hmax : 0 < Imax := hmin.trans_le hle
  refine ⟨_, color, hart, ?_, ?_, Imin, Imax, hle, ?_, ?_⟩
  · refine ⟨Imin * Imax ^ 2 / 16, by positivity, fun t => ?_⟩
    obtain ⟨hw, hh, hd⟩ := ellipse_displacement _ _ c0 s0 Imin Imax t hu hmin hmax _ rfl
    rw [hd, quad_form I a b c yy hform, hw, hh, abs_of_nonneg hz]
    have hsq : √(Imin * Imax) ^ 2 = Imin * Imax := Real.sq_sqrt (by positivity)
    have hsc := sin_sq_add_cos_sq t
    set p := Imax / 2 / 2 * cos t with hp
    set q := √(Imin * Imax) / 2 / 2 * sin t with hq
    have hp2 : p ^ 2 = Imax ^ 2 / 16 * cos t ^ 2 := by rw [hp]; ring
    have hq2 : q ^ 2 = Imin * Imax / 16 * sin t ^ 2 := by
      have : q ^ 2 = √(Imin * Imax) ^ 2 / 16 * sin t ^ 2 := by rw [hq]; ring
      rw [this, hsq]
    have key : a * (p * c0 + q * s0) ^ 2 + 2 * b * (p * c0 + q * s0) * (p * s0 - q * c0) +
        c * (p * s0 - q * c0) ^ 2 = Imin * p ^ 2 + Imax * q ^ 2 := by
      linear_combination (p ^ 2 * c0 + p * q * s0) * q2 + (p ^ 2 * s0 - p * q * c0) * q3 +
        (-q ^ 2 * s0 - p * q * c0) * q4 + (q ^ 2 * c0 - p * q * s0) * q5 + (Imin * p ^ 2 + Imax * q ^ 2) * hu
    rw [key, hp2, hq2]
    linear_combination (Imin * Imax ^ 2 / 16) * hsc
  · obtain ⟨hw, hh, _⟩ := ellipse_displacement _ _ c0 s0 Imin Imax 0 hu hmin hmax _ rfl
    rw [hw, hh]
    have : √(Imin * Imax) ≤ √(Imax * Imax) := Real.sqrt_le_sqrt (by nlinarith)
    rw [Real.sqrt_mul_self hmax.le] at this
    linarith
  · exact (ellipse_displacement _ _ c0 s0 Imin Imax 0 hu hmin hmax _ rfl).1
  · refine ⟨![c0, 0, s0], ![-s0, 0, c0], ?_, ?_, rfl, rfl, ?_⟩
    · rw [hform]
      ext i
      fin_cases i <;> simp <;> linarith
    · rw [hform]
      ext i
      fin_cases i <;> simp <;> linarith
    · simp
      nlinarith

/-- **C118 fails.** If `eig` returns a first in-plane axis that points up and is not along an axis of the
frame (as it may for any tensor with a product of inertia: both signs of an eigenvector are right),
the ellipse is mirrored: it is not the part's momental ellipse, since the moments about its two axes
times the squares of its two radii differ. -/
theorem C118_ellipse_mirrored (eig : Mat3 → Vec3 × Mat3) (argsort : Vec3 → Fin 3 → Fin 3)
    (hbij : ∀ v : Vec3, Function.Bijective (argsort v))
    (hsort : ∀ v : Vec3, Monotone fun i => v (argsort v i))
    (cmap : ℝ → String) (s : Drawable) (o : GeometryOptions) (fig : GeometryFigure)
    (h : plotBicycleGeometry eig argsort cmap s o = .ok fig) (ho : o.inertiaEllipse = true)
    (parts : List String) (hparts : drawnParts s.par = .ok parts) (i : ℕ) (part : String) (hi : parts[i]? = some part)
    (I : Mat3) (hI : partInertiaTensor s.par part = .ok I) (hE : EigOK eig I) (hpos : ∀ i, 0 < (eig I).1 i)
    (y : Fin 3) (hy : ellipseYRow (principalAxes argsort (eig I).1 (eig I).2).2 = some y)
    (hrow : IsYRow (principalAxes argsort (eig I).1 (eig I).2).2 y)
    (hother : ∀ j, j ≠ y → (principalAxes argsort (eig I).1 (eig I).2).2 j 1 = 0)
    (hz : (principalAxes argsort (eig I).1 (eig I).2).2 (y.succAbove 0) 2 < 0)
    (hx : (principalAxes argsort (eig I).1 (eig I).2).2 (y.succAbove 0) 0 ≠ 0)
    (hne : (principalAxes argsort (eig I).1 (eig I).2).1 (y.succAbove 0) ≠
      (principalAxes argsort (eig I).1 (eig I).2).1 (y.succAbove 1)) :
    ∃ e color, fig.artists[i]? = some (Artist.ellipse e color) ∧
      displacement e (π / 2) ⬝ᵥ (I *ᵥ displacement e (π / 2)) < displacement e 0 ⬝ᵥ (I *ᵥ displacement e 0) := by
  obtain ⟨a, b, c, yy, Imin, Imax, c0, s0, hform, hmin, hle, hc0, hs0, hm0, hm1, hu, q2, q3, q4, q5, color, hart⟩ :=
    drawn_ellipse hbij hsort h ho hparts hi hI hE hpos hy hrow hother
  rw [← hs0] at hz
  rw [← hc0] at hx
  rw [← hm0, ← hm1] at hne
  have hmax : 0 < Imax := hmin.trans_le hle
  have hlt : Imin < Imax := lt_of_le_of_ne hle hne
  refine ⟨_, color, hart, ?_⟩
  obtain ⟨hw, hh, hd⟩ := ellipse_displacement (drawnCenter s.par part).1 (drawnCenter s.par part).2 c0 s0 Imin Imax 0
    hu hmin hmax _ rfl
  obtain ⟨_, _, hd'⟩ := ellipse_displacement (drawnCenter s.par part).1 (drawnCenter s.par part).2 c0 s0 Imin Imax
    (π / 2) hu hmin hmax _ rfl
  rw [hd, hd', quad_form I a b c yy hform, quad_form I a b c yy hform, hw, hh, abs_of_neg hz, cos_zero, sin_zero,
    cos_pi_div_two, sin_pi_div_two]
  have hsq : √(Imin * Imax) ^ 2 = Imin * Imax := Real.sq_sqrt (by positivity)
  -- the tensor in terms of its moments and axes
  have ha : a = Imin * c0 ^ 2 + Imax * s0 ^ 2 := by linear_combination c0 * q2 - s0 * q4 - a * hu
  have hb : b = (Imin - Imax) * c0 * s0 := by linear_combination s0 * q2 + c0 * q4 - b * hu
  have hc : c = Imin * s0 ^ 2 + Imax * c0 ^ 2 := by linear_combination s0 * q3 + c0 * q5 - c * hu
  have hX : 0 < 4 * c0 ^ 2 * s0 ^ 2 * (Imax - Imin) := by
    have := sub_pos.2 hlt
    have : 0 < c0 ^ 2 := by positivity
    have : 0 < s0 ^ 2 := by have := hz.ne; positivity
    positivity
  have e1 : a * (Imax / 2 / 2 * 1 * c0 + √(Imin * Imax) / 2 / 2 * 0 * -s0) ^ 2 +
      2 * b * (Imax / 2 / 2 * 1 * c0 + √(Imin * Imax) / 2 / 2 * 0 * -s0) *
        (Imax / 2 / 2 * 1 * -s0 - √(Imin * Imax) / 2 / 2 * 0 * c0) +
      c * (Imax / 2 / 2 * 1 * -s0 - √(Imin * Imax) / 2 / 2 * 0 * c0) ^ 2 =
      Imax ^ 2 / 16 * (Imin + 4 * c0 ^ 2 * s0 ^ 2 * (Imax - Imin)) := by
    rw [ha, hb, hc]
    linear_combination (Imax ^ 2 / 16 * Imin * (c0 ^ 2 + s0 ^ 2 + 1)) * hu
  have e2 : a * (Imax / 2 / 2 * 0 * c0 + √(Imin * Imax) / 2 / 2 * 1 * -s0) ^ 2 +
      2 * b * (Imax / 2 / 2 * 0 * c0 + √(Imin * Imax) / 2 / 2 * 1 * -s0) *
        (Imax / 2 / 2 * 0 * -s0 - √(Imin * Imax) / 2 / 2 * 1 * c0) +
      c * (Imax / 2 / 2 * 0 * -s0 - √(Imin * Imax) / 2 / 2 * 1 * c0) ^ 2 =
      Imin * Imax / 16 * (Imax - 4 * c0 ^ 2 * s0 ^ 2 * (Imax - Imin)) := by
    rw [ha, hb, hc]
    generalize √(Imin * Imax) = r at hsq ⊢
    linear_combination (r ^ 2 / 16 * Imax * (c0 ^ 2 + s0 ^ 2 + 1)) * hu +
      (1 / 16 * (Imax - 4 * c0 ^ 2 * s0 ^ 2 * (Imax - Imin))) * hsq
  rw [e1, e2]
  have p1 : 0 < Imax ^ 2 / 16 * (4 * c0 ^ 2 * s0 ^ 2 * (Imax - Imin)) := by positivity
  have p2 : 0 < Imin * Imax / 16 * (4 * c0 ^ 2 * s0 ^ 2 * (Imax - Imin)) := by positivity
  nlinarith

/-- **C118 fails.** If `eig` returns the y axis of the first part pointing left and none of the other two
axes passes the test of the code, the plot raises UnboundLocalError. -/
theorem C118_unbound (eig : Mat3 → Vec3 × Mat3) (argsort : Vec3 → Fin 3 → Fin 3)
    (cmap : ℝ → String) (s : Drawable) (o : GeometryOptions) (ho : o.inertiaEllipse = true)
    (part : String) (parts : List String) (hparts : drawnParts s.par = .ok (part :: parts))
    (I : Mat3) (hI : partInertiaTensor s.par part = .ok I)
    (hg : ∀ k ∈ ["rR", "rF", "w", "x" ++ part, "z" ++ part], s.par.has k = true)
    (hrow : ∀ i, 1e-10 ≤ |(principalAxes argsort (eig I).1 (eig I).2).2 i 0 +
      (principalAxes argsort (eig I).1 (eig I).2).2 i 1 + (principalAxes argsort (eig I).1 (eig I).2).2 i 2 - 1|) :
    plotBicycleGeometry eig argsort cmap s o = .error .unboundLocal := by
  set C := (principalAxes argsort (eig I).1 (eig I).2).2 with hC
  have hnone : ellipseYRow C = none := by
    have hn : ∀ i, ¬|(C i 0 - 0) + (C i 1 - 1) + (C i 2 - 0)| < 1e-10 := by
      intro i
      have e : (C i 0 - 0) + (C i 1 - 1) + (C i 2 - 0) = C i 0 + C i 1 + C i 2 - 1 := by ring
      rw [e]
      exact not_lt.2 (hrow i)
    unfold ellipseYRow
    dsimp only
    rw [if_neg (hn 2), if_neg (hn 1), if_neg (hn 0)]
  obtain ⟨c, hc⟩ : ∃ c, partCenter s.par part = .ok c := by
    unfold partCenter
    rw [get_of_has (hg "rR" (by simp)), get_of_has (hg "rF" (by simp)), get_of_has (hg "w" (by simp)),
      get_of_has (hg ("x" ++ part) (by simp)), get_of_has (hg ("z" ++ part) (by simp))]
    split
    · exact ⟨_, rfl⟩
    · split <;> exact ⟨_, rfl⟩
  unfold plotBicycleGeometry
  rw [hparts]
  simp only [Except.bind, ho, if_true]
  unfold allEllipses partEllipse
  rw [hI, hc]
  simp only [Except.bind, ← hC, hnone]
  rfl

/-! ## When the plot can be made -/

theorem emap_total {A B : Type} {x : Except PyErr A} {f : A → B} (h : ∃ a, x = .ok a) : ∃ b, x.map f = .ok b := by
  obtain ⟨a, rfl⟩ := h; exact ⟨_, rfl⟩

theorem ebind_total {A B : Type} {x : Except PyErr A} {f : A → Except PyErr B} (h : ∃ a, x = .ok a)
    (hf : ∀ a, x = .ok a → ∃ b, f a = .ok b) : ∃ b, x.bind f = .ok b := by
  obtain ⟨a, rfl⟩ := h; exact hf a rfl

theorem partCenter_total {par : Dict ℝ} {part : String}
    (hg : ∀ k ∈ ["rR", "w", "rF"], par.has k = true)
    (hx : part ≠ "R" → part ≠ "F" → part ≠ "D" → par.has ("x" ++ part) = true ∧ par.has ("z" ++ part) = true) :
    ∃ c, partCenter par part = .ok c := by
  unfold partCenter
  by_cases h1 : part = "R"
  · rw [if_pos h1, get_of_has (hg "rR" (by simp))]; exact ⟨_, rfl⟩
  · rw [if_neg h1]
    by_cases h2 : part = "F" ∨ part = "D"
    · rw [if_pos h2, get_of_has (hg "w" (by simp)), get_of_has (hg "rF" (by simp))]; exact ⟨_, rfl⟩
    · rw [if_neg h2]
      push Not at h2
      obtain ⟨a, b⟩ := hx h1 h2.1 h2.2
      rw [get_of_has a, get_of_has b]; exact ⟨_, rfl⟩

theorem allEllipses_total {eig : Mat3 → Vec3 × Mat3} {argsort : Vec3 → Fin 3 → Fin 3} {par : Dict ℝ}
    (hg : ∀ k ∈ ["rR", "w", "rF"], par.has k = true) (parts : List String)
    (hx : ∀ part ∈ parts, part ≠ "R" → part ≠ "F" → part ≠ "D" →
      par.has ("x" ++ part) = true ∧ par.has ("z" ++ part) = true)
    (hI : ∀ part ∈ parts, ∃ I y, partInertiaTensor par part = .ok I ∧
      ellipseYRow (principalAxes argsort (eig I).1 (eig I).2).2 = some y) (y : Option (Fin 3)) :
    ∃ l, allEllipses eig argsort par y parts = .ok l := by
  induction parts generalizing y with
  | nil => exact ⟨_, rfl⟩
  | cons part parts ih =>
    obtain ⟨I, yy, h1, h2⟩ := hI part (by simp)
    obtain ⟨c, hc⟩ := partCenter_total (part := part) hg (hx part (by simp))
    obtain ⟨l, hl⟩ := ih (fun p hp => hx p (List.mem_cons_of_mem _ hp)) (fun p hp => hI p (List.mem_cons_of_mem _ hp))
      (some yy)
    unfold allEllipses partEllipse
    rw [h1, hc]
    simp only [Except.bind, h2, Option.or]
    rw [hl]
    exact ⟨_, rfl⟩

theorem get_some {V : Type} {d : Dict V} {k : String} {v : V} (h : d.find? k = some v) : d.get k = .ok v := by
  unfold Dict.get; rw [h]

theorem partColors_get (cmap : ℝ → String) {parts : List String} {part : String} (hp : part ∈ parts) :
    ∃ c, (partColors cmap parts).get part = .ok c := by
  obtain ⟨v, hv⟩ := (Dict.has_iff_exists _ _).1 (partColors_has cmap parts part hp)
  exact ⟨v, get_some hv⟩

theorem comMarks_total {par : Dict ℝ} (cmap : ℝ → String) {parts : List String}
    (hg : ∀ k ∈ ["rR", "w", "rF"], par.has k = true)
    (hx : ∀ part ∈ parts, part ≠ "R" → part ≠ "F" → part ≠ "D" →
      par.has ("x" ++ part) = true ∧ par.has ("z" ++ part) = true)
    (hF : "F" ∈ parts) (hR : "R" ∈ parts) (hH : par.has "xH" = true ∧ par.has "zH" = true) :
    ∃ l, comMarks par (partColors cmap parts) parts = .ok l := by
  obtain ⟨cF, hcF⟩ := partColors_get cmap hF
  obtain ⟨cR, hcR⟩ := partColors_get cmap hR
  unfold comMarks
  rw [get_of_has (hg "rR" (by simp)), get_of_has (hg "w" (by simp)), get_of_has (hg "rF" (by simp)), hcF, hcR,
    get_of_has hH.1, get_of_has hH.2]
  simp only [Except.bind, Except.map]
  obtain ⟨rest, hrest⟩ := mapM_total (l := parts.filter fun x => decide ¬(x = "R" ∨ x = "F" ∨ x = "D"))
    (f := fun part => (par.get ("x" ++ part)).bind fun x => (par.get ("z" ++ part)).bind fun z =>
      ((partColors cmap parts).get part).map fun c => comMark (x, -z) c part) (by
      intro part hp
      rw [List.mem_filter] at hp
      obtain ⟨hp, hn⟩ := hp
      simp only [decide_eq_true_eq, not_or] at hn
      obtain ⟨a, b⟩ := hx part hp hn.1 hn.2.1 hn.2.2
      obtain ⟨c, hc⟩ := partColors_get cmap hp
      rw [get_of_has a, get_of_has b, hc]
      exact ⟨_, rfl⟩)
  simp only [Except.bind, Except.map] at hrest
  rw [hrest]
  by_cases h : "H" ∈ parts
  · simp only [if_pos h]; exact ⟨_, rfl⟩
  · simp only [if_neg h]; exact ⟨_, rfl⟩

theorem stickFigure_total {s : Drawable} (hr : s.par.has "rR" = true)
    (hm : s.human.isSome = true → ∀ k ∈ ["hbb", "lcs", "lsp", "lst", "lamst"], s.measured.has k = true) :
    ∃ l, stickFigure s = .ok l := by
  unfold stickFigure
  cases hh : s.human with
  | none => exact ⟨_, rfl⟩
  | some j =>
    have hm := hm (by simp [hh])
    have hj : ∀ v, ∃ q, drawnJoint s v = .ok q := by
      intro v
      unfold drawnJoint yeadonVecToBicycleVec
      rw [get_of_has (hm "hbb" (by simp)), get_of_has (hm "lcs" (by simp)), get_of_has hr,
        get_of_has (hm "lsp" (by simp)), get_of_has (hm "lst" (by simp)), get_of_has (hm "lamst" (by simp))]
      exact ⟨_, rfl⟩
    have hl : ∀ a b, ∃ l, limb s a b = .ok l := by
      intro a b
      obtain ⟨p, hp⟩ := hj a
      obtain ⟨q, hq⟩ := hj b
      unfold limb
      rw [hp]
      simp only [Except.bind, hq]
      exact ⟨_, rfl⟩
    dsimp only
    refine ebind_total (mapM_total ?_) ?_
    · intro ab _
      exact hl ab.1 ab.2
    · intro l _
      exact emap_total (hj j.head)

theorem pendulumSegments_total {s : Drawable} {o : GeometryOptions}
    (hp : ∀ e, PendulumsShown s o e → ∀ pr ∈ e.slopes, s.par.has ("x" ++ pr.1) = true ∧
      s.par.has ("z" ++ pr.1) = true ∧ ∃ bs ls, e.intercepts.find? pr.1 = some bs ∧ e.inertias.find? pr.1 = some ls ∧
        pr.2.length ≤ bs.length ∧ pr.2.length ≤ ls.length) :
    ∃ l, pendulumSegments s o = .ok l ∧ ∀ sg ∈ l, ∃ e, PendulumsShown s o e ∧ ∃ pr ∈ e.slopes, sg.1 = pr.1 := by
  unfold pendulumSegments
  cases he : s.extras with
  | none => exact ⟨[], rfl, by simp⟩
  | some e =>
    dsimp only
    by_cases hs : o.pendulum = true ∧ ¬s.hasRider = true
    · have hsh : PendulumsShown s o e := ⟨hs.1, by simpa using hs.2, he⟩
      rw [if_pos hs]
      obtain ⟨out, hout⟩ := mapM_total (l := e.slopes)
        (f := fun pr => (partPendulums e.intercepts e.inertias s.par pr.1 pr.2).map fun l => (pr.1, l)) (by
        intro pr hpr
        obtain ⟨h1, h2, bs, ls, h3, h4, h5, h6⟩ := hp e hsh pr hpr
        unfold partPendulums
        rw [get_of_has h1, get_of_has h2]
        simp only [Except.bind]
        refine emap_total (mapM_total ?_)
        intro m hm
        obtain ⟨x, i⟩ := m
        rw [List.mk_mem_zipIdx_iff_getElem?] at hm
        have hi : i < pr.2.length := (List.getElem?_eq_some_iff.1 hm).1
        rw [get_some h3, get_some h4]
        simp only [List.getElem?_eq_getElem (hi.trans_le h5), List.getElem?_eq_getElem (hi.trans_le h6)]
        exact ⟨_, rfl⟩)
      refine ⟨out, hout, ?_⟩
      intro sg hsg
      obtain ⟨pr, hpr, hb⟩ := mapM_ok_mem hout hsg
      obtain ⟨l, _, rfl⟩ := emap_ok hb
      exact ⟨e, hsh, pr, hpr, rfl⟩
    · rw [if_neg hs]; exact ⟨[], rfl, by simp⟩

/-- **C118.** The plot can be made if the geometry is complete, every part's mass centre is known, with
`centerOfMass` both wheels have a mass and the fork a mass centre, with `inertiaEllipse` the tensors
are complete and the y axes are found, the pendulum measurements that are to be drawn are complete,
and for a rider the frame measurements are there. -/
theorem C118_succeeds (eig : Mat3 → Vec3 × Mat3) (argsort : Vec3 → Fin 3 → Fin 3)
    (cmap : ℝ → String) (s : Drawable) (o : GeometryOptions)
    (parts : List String) (hparts : drawnParts s.par = .ok parts)
    (hg : ∀ k ∈ ["rR", "w", "rF", "c", "lam"], s.par.has k = true)
    (hx : ∀ part ∈ parts, part ≠ "R" → part ≠ "F" → part ≠ "D" →
      s.par.has ("x" ++ part) = true ∧ s.par.has ("z" ++ part) = true)
    (hc : o.centerOfMass = true → "F" ∈ parts ∧ "R" ∈ parts ∧ s.par.has "xH" = true ∧ s.par.has "zH" = true)
    (hI : o.inertiaEllipse = true → ∀ part ∈ parts, ∃ I y, partInertiaTensor s.par part = .ok I ∧
      ellipseYRow (principalAxes argsort (eig I).1 (eig I).2).2 = some y)
    (hp : ∀ e, PendulumsShown s o e → ∀ pr ∈ e.slopes, pr.1 ∈ parts ∧ s.par.has ("x" ++ pr.1) = true ∧
      s.par.has ("z" ++ pr.1) = true ∧ ∃ bs ls, e.intercepts.find? pr.1 = some bs ∧ e.inertias.find? pr.1 = some ls ∧
        pr.2.length ≤ bs.length ∧ pr.2.length ≤ ls.length)
    (hm : s.human.isSome = true → ∀ k ∈ ["hbb", "lcs", "lsp", "lst", "lamst"], s.measured.has k = true) :
    ∃ fig, plotBicycleGeometry eig argsort cmap s o = .ok fig := by
  have hg' : ∀ k ∈ ["rR", "w", "rF"], s.par.has k = true := by
    intro k hk; apply hg; simp at hk ⊢; tauto
  obtain ⟨ells, hells, hmem⟩ : ∃ l, (if o.inertiaEllipse then allEllipses eig argsort s.par none parts else .ok []) =
      .ok l ∧ ∀ e ∈ l, e.1 ∈ parts := by
    by_cases ho : o.inertiaEllipse = true
    · obtain ⟨l, hl⟩ := allEllipses_total (eig := eig) (argsort := argsort) hg' parts hx (hI ho) none
      refine ⟨l, by rw [if_pos ho, hl], ?_⟩
      have hF := allEllipses_spec hl
      clear hl
      intro e he
      have key : ∀ {ps : List String} {l : List (String × (ℝ × ℝ) × (ℝ × ℝ × ℝ))} {R : String → (String × (ℝ × ℝ) × (ℝ × ℝ × ℝ)) → Prop},
          List.Forall₂ (fun part e => e.1 = part ∧ R part e) ps l → ∀ e ∈ l, e.1 ∈ ps := by
        intro ps l R h
        induction h with
        | nil => simp
        | cons h1 _ ih =>
          intro e he
          rcases List.mem_cons.1 he with rfl | he
          · rw [h1.1]; simp
          · exact List.mem_cons_of_mem _ (ih e he)
      exact key hF e he
    · exact ⟨[], by rw [if_neg ho], by simp⟩
  obtain ⟨ellipses, hellipses⟩ := mapM_total (l := ells)
    (f := fun e => ((partColors cmap parts).get e.1).map fun c =>
      Artist.ellipse ⟨e.2.1.1, e.2.1.2, e.2.2.1, e.2.2.2.1, e.2.2.2.2⟩ c) (by
      intro e he
      obtain ⟨c, hc⟩ := partColors_get cmap (hmem e he)
      rw [hc]; exact ⟨_, rfl⟩)
  have hreq := (Dict.require_ok_iff s.par ["rR", "w", "rF", "c", "lam"]).2 hg
  obtain ⟨segs, hsegs, hsmem⟩ := pendulumSegments_total (s := s) (o := o) (fun e he pr hpr => (hp e he pr hpr).2)
  obtain ⟨pens, hpens⟩ : ∃ pens, pendulumArtists (partColors cmap parts) segs = .ok pens := by
    unfold pendulumArtists
    obtain ⟨l, hl⟩ := mapM_total (l := segs) (f := fun e : String × List ((ℝ × ℝ) × (ℝ × ℝ)) =>
      e.2.zipIdx.mapM fun g : ((ℝ × ℝ) × (ℝ × ℝ)) × ℕ => ((partColors cmap parts).get e.1).map fun c =>
        [Artist.line [g.1.1, g.1.2] c, Artist.text g.1.1 (toString (g.2 + 1))]) (by
      intro sg hsg
      obtain ⟨e, he, pr, hpr, h1⟩ := hsmem sg hsg
      obtain ⟨c, hc⟩ := partColors_get cmap (hp e he pr hpr).1
      refine mapM_total ?_
      intro g _
      rw [h1, hc]; exact ⟨_, rfl⟩)
    rw [hl]; exact ⟨_, rfl⟩
  obtain ⟨coms, hcoms⟩ : ∃ coms, (if o.centerOfMass then comMarks s.par (partColors cmap parts) parts else .ok []) =
      .ok coms := by
    by_cases ho : o.centerOfMass = true
    · rw [if_pos ho]
      obtain ⟨h1, h2, h3⟩ := hc ho
      exact comMarks_total cmap hg' hx h1 h2 h3
    · exact ⟨[], by rw [if_neg ho]⟩
  obtain ⟨stick, hstick⟩ := stickFigure_total (s := s) (hg' "rR" (by simp)) hm
  unfold plotBicycleGeometry
  rw [hparts]
  simp only [Except.bind]
  rw [hells]
  dsimp only
  rw [hellipses]
  dsimp only
  rw [hreq]
  dsimp only
  rw [hsegs]
  dsimp only
  rw [hpens]
  dsimp only
  rw [hcoms]
  dsimp only
  rw [hstick]
  exact ⟨_, rfl⟩

/-! ## Examples -/

/-- A bicycle with one massive part, the frame, whose principal axes are inclined. -/
noncomputable def Spec.inclinedFrame : Drawable :=
  { par := [("rR", 0.3), ("rF", 0.35), ("w", 1), ("c", 0.1), ("lam", 0.3), ("mB", 10), ("xB", 0.4), ("zB", -0.6),
      ("IBxx", 41 / 25), ("IBxz", 12 / 25), ("IByy", 3), ("IBzz", 34 / 25)]
    measured := []
    extras := none
    hasRider := false
    human := none }

/-- its inertia -/
noncomputable def Spec.inclinedTensor : Mat3 := !![41 / 25, 0, 12 / 25; 0, 3, 0; 12 / 25, 0, 34 / 25]

/-- The eigenvectors of that tensor, the first with the given sign. -/
noncomputable def Spec.inclinedEig (sign : ℝ) (_ : Mat3) : Vec3 × Mat3 :=
  (![1, 2, 3], !![sign * (3 / 5), 4 / 5, 0; 0, 0, 1; sign * (-4 / 5), 3 / 5, 0])

theorem inclined_eig (sign : ℝ) (hs : sign ^ 2 = 1) : EigOK (inclinedEig sign) inclinedTensor := by
  refine ⟨?_, ?_, ?_⟩
  · intro i
    ext r
    fin_cases i <;> fin_cases r <;> simp [inclinedEig, inclinedTensor, Matrix.mulVec, dotProduct, Fin.sum_univ_three] <;>
      ring
  · intro i
    fin_cases i <;> simp [inclinedEig, Fin.sum_univ_three] <;> nlinarith
  · have : sign ≠ 0 := by rintro rfl; norm_num at hs
    rw [Matrix.det_fin_three]
    simp [inclinedEig]
    intro h
    apply this
    linarith

theorem inclined_parts : drawnParts inclinedFrame.par = .ok ["B"] := by
  rfl

theorem inclined_tensor : partInertiaTensor inclinedFrame.par "B" = .ok inclinedTensor := by
  have h : Dict.require inclinedFrame.par ["IBxx", "I" ++ "B" ++ "xx", "I" ++ "B" ++ "xz", "I" ++ "B" ++ "yy", "I" ++ "B" ++ "zz"] =
      .ok () := by
    rw [Dict.require_ok_iff]
    intro k hk
    simp only [List.mem_cons, List.not_mem_nil, or_false] at hk
    rcases hk with rfl | rfl | rfl | rfl | rfl <;> rfl
  unfold partInertiaTensor
  dsimp only
  rw [if_neg (by decide), h]
  rfl

theorem sort_axes (sign : ℝ) : principalAxes (fun v => Tuple.sort v) (inclinedEig sign inclinedTensor).1
    (inclinedEig sign inclinedTensor).2 =
    (![1, 2, 3], !![sign * (3 / 5), 0, sign * (-4 / 5); 4 / 5, 0, 3 / 5; 0, 1, 0]) := by
  have h : Tuple.sort (inclinedEig sign inclinedTensor).1 = Equiv.refl _ := by
    rw [Tuple.sort_eq_refl_iff_monotone]
    intro i j hij
    fin_cases i <;> fin_cases j <;> simp [inclinedEig] at hij ⊢ <;> norm_num
  unfold principalAxes
  dsimp only
  rw [h]
  refine Prod.ext ?_ ?_
  · rfl
  · ext i j
    fin_cases i <;> fin_cases j <;> rfl

theorem inclined_row (sign : ℝ) (hs : sign = 1 ∨ sign = -1) :
    ellipseYRow !![sign * (3 / 5), 0, sign * (-4 / 5); 4 / 5, 0, 3 / 5; 0, 1, 0] = some 2 := by
  unfold ellipseYRow
  dsimp only
  rw [if_pos]
  simp
  norm_num

/-- the example can be plotted, whichever sign `eig` returns -/
theorem inclined_plot (sign : ℝ) (hs : sign = 1 ∨ sign = -1) :
    ∃ fig, plotBicycleGeometry (inclinedEig sign) (fun v => Tuple.sort v) (fun _ => "b") inclinedFrame ⟨false, false, true⟩ =
      .ok fig := by
  refine C118_succeeds _ _ _ _ _ ["B"] inclined_parts ?_ ?_ ?_ ?_ ?_ ?_
  · intro k hk
    simp only [List.mem_cons, List.not_mem_nil, or_false] at hk
    rcases hk with rfl | rfl | rfl | rfl | rfl <;> rfl
  · intro part hp _ _ _
    simp only [List.mem_cons, List.not_mem_nil, or_false] at hp
    subst hp
    exact ⟨rfl, rfl⟩
  · intro h; cases h
  · intro _ part hp
    simp only [List.mem_cons, List.not_mem_nil, or_false] at hp
    subst hp
    refine ⟨_, 2, inclined_tensor, ?_⟩
    rw [sort_axes]
    exact inclined_row sign hs
  · intro e he; exact absurd he.1 (by simp)
  · intro h; cases h

/-- non-vacuity of `C118_ellipse_shape_partial` and of all the theorems about a figure -/
example : ∃ fig, plotBicycleGeometry (inclinedEig (-1)) (fun v => Tuple.sort v) (fun _ => "b") inclinedFrame
    ⟨false, false, true⟩ = .ok fig ∧ ∃ e color, fig.artists[0]? = some (Artist.ellipse e color) ∧
    (∃ k, 0 < k ∧ ∀ t, displacement e t ⬝ᵥ (inclinedTensor *ᵥ displacement e t) = k) := by
  obtain ⟨fig, hfig⟩ := inclined_plot (-1) (Or.inr rfl)
  obtain ⟨e, color, h1, h2, _⟩ := C118_ellipse_shape_partial _ _ (fun v => (Tuple.sort v).bijective)
    (fun v => Tuple.monotone_sort v) _ _ _ fig hfig rfl ["B"] inclined_parts 0 "B" rfl inclinedTensor inclined_tensor
    (inclined_eig (-1) (by norm_num)) (by intro i; fin_cases i <;> simp [inclinedEig]) 2
    (by rw [sort_axes]; exact inclined_row (-1) (Or.inr rfl))
    (by rw [sort_axes]; intro k hk; fin_cases k <;> simp at hk ⊢)
    (by rw [sort_axes]; intro k hk; fin_cases k <;> simp at hk ⊢)
    (by rw [sort_axes]; simp [Fin.succAbove]; norm_num)
  exact ⟨fig, hfig, e, color, h1, h2⟩

/-- non-vacuity of `C118_ellipse_mirrored` -/
example : ∃ fig, plotBicycleGeometry (inclinedEig 1) (fun v => Tuple.sort v) (fun _ => "b") inclinedFrame
    ⟨false, false, true⟩ = .ok fig ∧ ∃ e color, fig.artists[0]? = some (Artist.ellipse e color) ∧
    displacement e (π / 2) ⬝ᵥ (inclinedTensor *ᵥ displacement e (π / 2)) <
      displacement e 0 ⬝ᵥ (inclinedTensor *ᵥ displacement e 0) := by
  obtain ⟨fig, hfig⟩ := inclined_plot 1 (Or.inl rfl)
  refine ⟨fig, hfig, C118_ellipse_mirrored _ _ (fun v => (Tuple.sort v).bijective)
    (fun v => Tuple.monotone_sort v) _ _ _ fig hfig rfl ["B"] inclined_parts 0 "B" rfl inclinedTensor inclined_tensor
    (inclined_eig 1 (by norm_num)) (by intro i; fin_cases i <;> simp [inclinedEig]) 2
    (by rw [sort_axes]; exact inclined_row 1 (Or.inl rfl))
    (by rw [sort_axes]; intro k hk; fin_cases k <;> simp at hk ⊢)
    (by rw [sort_axes]; intro k hk; fin_cases k <;> simp at hk ⊢)
    (by rw [sort_axes]; simp [Fin.succAbove]; norm_num) (by rw [sort_axes]; simp [Fin.succAbove])
    (by rw [sort_axes]; simp [Fin.succAbove])⟩

/-- non-vacuity of `C118_unbound`: the same part with the y axis pointing left -/
example : plotBicycleGeometry (fun _ => (![1, 2, 3], !![3 / 5, 4 / 5, 0; 0, 0, -1; -4 / 5, 3 / 5, 0])) (fun _ => id)
    (fun _ => "b") inclinedFrame ⟨false, false, true⟩ = .error .unboundLocal := by
  refine C118_unbound _ _ _ _ _ rfl "B" [] inclined_parts inclinedTensor inclined_tensor ?_ ?_
  · intro k hk
    simp only [List.mem_cons, List.not_mem_nil, or_false] at hk
    rcases hk with rfl | rfl | rfl | rfl | rfl <;> rfl
  · intro i
    fin_cases i <;> simp [principalAxes] <;> norm_num [abs_of_neg, abs_of_pos]

end BP
