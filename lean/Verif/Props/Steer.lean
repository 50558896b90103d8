import Mathlib.Tactic.Ring
import Mathlib.Tactic.NormNum
import Mathlib.Tactic.Linarith
import Mathlib.Tactic.LinearCombination
import Mathlib.Tactic.FieldSimp
import Verif.Model.Main
import Verif.Props.Inertia
import Verif.Props.Geometry
import Verif.Lemmas.Canonical

set_option linter.unusedSimpArgs false

/-!
# C39, C43, C82, C83: steer assembly inertia, phase alignment, geometry plot
-/

namespace BP
open Real Matrix Spec

/-! ## C39 -/

/-- A part of the bicycle in the symmetry plane as a body: mass, mass centre, inertia. -/
noncomputable def Spec.partBody (par : Dict ℝ) (s : String) : Body :=
  let v := fun k => Dict.getD par k 0
  planarBody (v ("m" ++ s)) (v ("x" ++ s)) (v ("z" ++ s)) (v ("I" ++ s ++ "xx")) (v ("I" ++ s ++ "yy"))
    (v ("I" ++ s ++ "xz")) (v ("I" ++ s ++ "zz"))

/-- The front wheel as a body. -/
noncomputable def Spec.frontWheel (par : Dict ℝ) : Body :=
  let v := fun k => Dict.getD par k 0
  planarBody (v "mF") (v "w") (-v "rF") (v "IFxx") (v "IFyy") 0 (v "IFxx")

/-- The bodies the caller asks for: handlebar and fork together are part H, alone G and S. -/
noncomputable def Spec.steerBodies (par : Dict ℝ) (handlebar fork wheel : Bool) : List Body :=
  (if handlebar && fork then [Spec.partBody par "H"]
   else if handlebar then [Spec.partBody par "G"]
   else if fork then [Spec.partBody par "S"] else []) ++
  (if wheel then [Spec.frontWheel par] else [])

/-- Inertia tensor of some bodies about the point `o`. -/
noncomputable def Spec.tensorAbout (bodies : List Body) (o : Vec3) : Mat3 :=
  (bodies.map fun b => parallelAxis b.I b.m (b.r - o)).sum

/-- Mass centre of some bodies. -/
def Spec.IsMassCentre (bodies : List Body) (c : Vec3) : Prop :=
  (bodies.map fun b => b.m).sum • c = (bodies.map fun b => b.m • b.r).sum

/-- The steer axis: through `(w + c, 0, 0)` with the direction `(sin λ, 0, cos λ)`. -/
def Spec.OnSteerAxis (par : Dict ℝ) (q : Vec3) : Prop :=
  ∃ t : ℝ, q = ![Dict.getD par "w" 0 + Dict.getD par "c" 0, 0, 0] + t • steerDir (Dict.getD par "lam" 0)

theorem partInertiaTensor_ok (par : Dict ℝ) (s : String) (I : Mat3)
    (hs : s ∉ ["F", "R", "D", "FR", "RD", "FRD", ""]) (h : partInertiaTensor par s = .ok I) :
    I = (Spec.partBody par s).I := by
  unfold partInertiaTensor at h
  dsimp only at h
  rw [if_neg hs] at h
  split at h
  · simp at h
  · injection h with h
    rw [← h]; rfl

/-- The handlebar/fork part as one body, massless when there is none. -/
theorem steerPart_ok (par : Dict ℝ) (hb fk : Bool) (I : Mat3) (m x z : ℝ)
    (h : steerPart par hb fk = .ok (I, m, x, z)) :
    ∃ b : Body, b.I = I ∧ b.m = m ∧ b.r = ![x, 0, z] ∧
      (∀ wh o, Spec.tensorAbout (Spec.steerBodies par hb fk wh) o =
        parallelAxis b.I b.m (b.r - o) + Spec.tensorAbout (if wh then [Spec.frontWheel par] else []) o) ∧
      (∀ wh, ((Spec.steerBodies par hb fk wh).map fun b => b.m).sum =
        b.m + (((if wh then [Spec.frontWheel par] else [] : List Body)).map fun b => b.m).sum) ∧
      (∀ wh, ((Spec.steerBodies par hb fk wh).map fun b => b.m • b.r).sum =
        b.m • b.r + (((if wh then [Spec.frontWheel par] else [] : List Body)).map fun b => b.m • b.r).sum) := by
  have hread : ∀ s : String, s ∉ ["F", "R", "D", "FR", "RD", "FRD", ""] →
      steerRead par s = .ok (I, m, x, z) →
      (Spec.partBody par s).I = I ∧ (Spec.partBody par s).m = m ∧ (Spec.partBody par s).r = ![x, 0, z] := by
    intro s hs h
    unfold steerRead at h
    split at h
    · rename_i I' hI _
      simp only [Except.ok.injEq, Prod.mk.injEq] at h
      obtain ⟨h1, h2, h3, h4⟩ := h
      subst h1 h2 h3 h4
      exact ⟨(partInertiaTensor_ok par s I' hs hI).symm, rfl, rfl⟩
    · simp at h
  unfold steerPart at h
  cases hb <;> cases fk <;> simp only [Bool.and_true, Bool.and_false, Bool.true_and, Bool.false_and,
    if_true, Bool.false_eq_true, if_false] at h
  · simp only [Except.ok.injEq, Prod.mk.injEq] at h
    obtain ⟨h1, h2, h3, h4⟩ := h
    subst h1 h2 h3 h4
    refine ⟨⟨0, ![0, 0, 0], 0⟩, rfl, rfl, rfl, ?_, ?_, ?_⟩
    · intro wh o
      simp [Spec.steerBodies, Spec.tensorAbout, parallelAxis_eq]
    · intro wh; simp [Spec.steerBodies]
    · intro wh; simp [Spec.steerBodies]
  · obtain ⟨h1, h2, h3⟩ := hread "S" (by decide) h
    refine ⟨Spec.partBody par "S", h1, h2, h3, ?_, ?_, ?_⟩
    · intro wh o; simp [Spec.steerBodies, Spec.tensorAbout]
    · intro wh; simp [Spec.steerBodies]
    · intro wh; simp [Spec.steerBodies]
  · obtain ⟨h1, h2, h3⟩ := hread "G" (by decide) h
    refine ⟨Spec.partBody par "G", h1, h2, h3, ?_, ?_, ?_⟩
    · intro wh o; simp [Spec.steerBodies, Spec.tensorAbout]
    · intro wh; simp [Spec.steerBodies]
    · intro wh; simp [Spec.steerBodies]
  · obtain ⟨h1, h2, h3⟩ := hread "H" (by decide) h
    refine ⟨Spec.partBody par "H", h1, h2, h3, ?_, ?_, ?_⟩
    · intro wh o; simp [Spec.steerBodies, Spec.tensorAbout]
    · intro wh; simp [Spec.steerBodies]
    · intro wh; simp [Spec.steerBodies]

/-- Steiner: two bodies about their mass centre, then moved to a point `q`. -/
theorem steiner_two (b1 b2 : Body) (c q : Vec3) (hc : (b1.m + b2.m) • c = b1.m • b1.r + b2.m • b2.r) :
    parallelAxis b1.I b1.m (b1.r - q) + parallelAxis b2.I b2.m (b2.r - q) =
      parallelAxis (parallelAxis b1.I b1.m (b1.r - c) + parallelAxis b2.I b2.m (b2.r - c))
        (b1.m + b2.m) (c - q) := by
  have h : ∀ i, (b1.m + b2.m) * c i = b1.m * b1.r i + b2.m * b2.r i := fun i => by
    have := congrFun hc i; simpa using this
  have h0 := h 0
  have h1 := h 1
  have h2 := h 2
  ext i j
  fin_cases i <;> fin_cases j <;> simp [parallelAxis]
  · linear_combination (2 * (q 1 - c 1)) * h1 + (2 * (q 2 - c 2)) * h2
  · linear_combination (c 1 - q 1) * h0 + (c 0 - q 0) * h1
  · linear_combination (c 2 - q 2) * h0 + (c 0 - q 0) * h2
  · linear_combination (c 1 - q 1) * h0 + (c 0 - q 0) * h1
  · linear_combination (2 * (q 2 - c 2)) * h2 + (2 * (q 0 - c 0)) * h0
  · linear_combination (c 2 - q 2) * h1 + (c 1 - q 1) * h2
  · linear_combination (c 2 - q 2) * h0 + (c 0 - q 0) * h2
  · linear_combination (c 2 - q 2) * h1 + (c 1 - q 1) * h2
  · linear_combination (2 * (q 1 - c 1)) * h1 + (2 * (q 0 - c 0)) * h0

theorem require_has {V : Type} {par : Dict V} {ks : List String} (h : Dict.require par ks = .ok ()) :
    ∀ k ∈ ks, par.has k = true := (Dict.require_ok_iff par ks).1 h

/-- The mass centre used by `steerAssembly`. -/
theorem totalCom_two (b1 b2 : Body) (x1 z1 x2 z2 : ℝ) (h1 : b1.r = ![x1, 0, z1]) (h2 : b2.r = ![x2, 0, z2])
    (hm : b1.m + b2.m ≠ 0) :
    (totalCom [(b1.m, ![x1, 0, z1]), (b2.m, ![x2, 0, z2])]).1 = b1.m + b2.m ∧
    ∃ cx cz, (totalCom [(b1.m, ![x1, 0, z1]), (b2.m, ![x2, 0, z2])]).2 = ![cx, 0, cz] ∧
      (b1.m + b2.m) • ![cx, 0, cz] = b1.m • b1.r + b2.m • b2.r := by
  refine ⟨by simp [totalCom], (b1.m * x1 + b2.m * x2) / (b1.m + b2.m),
    (b1.m * z1 + b2.m * z2) / (b1.m + b2.m), ?_, ?_⟩
  · ext i; fin_cases i <;> simp [totalCom]
  · rw [h1, h2]
    ext i; fin_cases i <;> simp <;> field_simp

/-- Moving the rotated tensor by the distance to the axis is rotating the tensor about the
projection of the mass centre on the axis. -/
theorem about_axis (I : Mat3) (m w c lam x z : ℝ) :
    ∃ q : Vec3, (∃ t : ℝ, q = ![w + c, 0, 0] + t • steerDir lam) ∧
      parallelAxis (rotateInertiaTensor I lam) m ![distanceToSteerAxis w c lam ![x, 0, z], 0, 0] =
        rotateInertiaTensor (parallelAxis I m (![x, 0, z] - q)) lam := by
  have hsc := sin_sq_add_cos_sq lam
  set a := aheadOfAxis (w + c) lam x z with ha
  refine ⟨![x - a * cos lam, 0, z + a * sin lam],
    ⟨alongAxis lam (x - (w + c)) z, ?_⟩, ?_⟩
  · rw [ha]
    ext i; fin_cases i <;> simp [aheadOfAxis, alongAxis, steerDir]
    · linear_combination (-(x - (w + c))) * hsc
    · linear_combination (-z) * hsc
  · rw [distanceToSteerAxis_eq, ← ha]
    have habs : |a| ^ 2 = a ^ 2 := sq_abs a
    have hadd : ∀ A B : Mat3, rotateInertiaTensor (A + B) lam =
        rotateInertiaTensor A lam + rotateInertiaTensor B lam := by
      intro A B; simp [rotateInertiaTensor, Matrix.add_mul, Matrix.mul_add]
    have hpa : ∀ (A : Mat3) (d : Vec3), parallelAxis A m d = A + parallelAxis 0 m d := by
      intro A d; simp [parallelAxis]
    have hd : (![x, 0, z] - ![x - a * cos lam, 0, z + a * sin lam] : Vec3) = ![a * cos lam, 0, -(a * sin lam)] := by
      ext i; fin_cases i <;> simp
    rw [hpa _ ![|a|, 0, 0], hpa I, hadd, hd]
    congr 1
    have e : parallelAxis 0 m ![a * cos lam, 0, -(a * sin lam)] =
        !![m * (a * sin lam) ^ 2, 0, m * (a * cos lam * (a * sin lam)); 0, m * a ^ 2, 0;
           m * (a * cos lam * (a * sin lam)), 0, m * (a * cos lam) ^ 2] := by
      ext i j
      fin_cases i <;> fin_cases j <;> simp [parallelAxis]
      left
      linear_combination a ^ 2 * hsc
    have e2 : parallelAxis 0 m ![|a|, 0, 0] = !![0, 0, 0; 0, m * a ^ 2, 0; 0, 0, m * a ^ 2] := by
      ext i j
      fin_cases i <;> fin_cases j <;> simp [parallelAxis]
    rw [e, e2]
    have hsq : ∀ i j : Fin 3, (rotateInertiaTensor !![m * (a * sin lam) ^ 2, 0, m * (a * cos lam * (a * sin lam)); 0, m * a ^ 2, 0;
           m * (a * cos lam * (a * sin lam)), 0, m * (a * cos lam) ^ 2] lam) i j =
        ∑ k, rotY lam i k * ∑ l, (!![m * (a * sin lam) ^ 2, 0, m * (a * cos lam * (a * sin lam)); 0, m * a ^ 2, 0;
           m * (a * cos lam * (a * sin lam)), 0, m * (a * cos lam) ^ 2] : Mat3) k l * rotY lam j l := by
      intro i j
      simp only [rotateInertiaTensor, Matrix.mul_apply, Matrix.transpose_apply]
    ext i j
    rw [hsq]
    fin_cases i <;> fin_cases j <;> simp [rotY, Fin.sum_univ_three]
    · ring
    · ring
    · ring
    · linear_combination (-(m * a ^ 2 * (1 + cos lam ^ 2 + sin lam ^ 2))) * hsc

/-- **C39.** The result is the inertia tensor of exactly the requested bodies, expressed in
the frame whose third axis is the steer axis: without `aboutSteerAxis` about their mass
centre, with it about a point of the steer axis (the projection of the mass centre).  Only
when the wheel is included must the total mass not vanish. -/
theorem C39_assembly_tensor (par : Dict ℝ) (hb fk wh ax : Bool) (I : Mat3)
    (h : steerAssembly par hb fk wh ax = .ok I)
    (hm : wh = true → ((Spec.steerBodies par hb fk wh).map fun b => b.m).sum ≠ 0) :
    ∃ q : Vec3, I = rotateInertiaTensor (Spec.tensorAbout (Spec.steerBodies par hb fk wh) q)
        (Dict.getD par "lam" 0) ∧
      (ax = false → Spec.IsMassCentre (Spec.steerBodies par hb fk wh) q) ∧
      (ax = true → Spec.OnSteerAxis par q) := by
  unfold steerAssembly at h
  dsimp only at h
  split at h
  · simp at h
  · rename_i I0 m0 x0 z0 hpart
    obtain ⟨b, hbI, hbm, hbr, ht, hsm, hsr⟩ := steerPart_ok par hb fk I0 m0 x0 z0 hpart
    cases wh with
    | false =>
      simp only [Bool.false_eq_true, if_false] at h
      cases hl : Dict.require par ["lam"] with
      | error e => rw [hl] at h; simp at h
      | ok u =>
        rw [hl] at h
        simp only at h
        have htens : ∀ o, Spec.tensorAbout (Spec.steerBodies par hb fk false) o = parallelAxis b.I b.m (b.r - o) := by
          intro o; rw [ht]; simp [Spec.tensorAbout]
        cases ax with
        | false =>
          simp only [Bool.false_eq_true, if_false, Except.ok.injEq] at h
          refine ⟨b.r, ?_, ?_, by simp⟩
          · rw [← h, htens, sub_self, hbI]
            congr 1
            simp [parallelAxis]
            ext i j; fin_cases i <;> fin_cases j <;> simp
          · intro _
            unfold Spec.IsMassCentre
            rw [hsm, hsr]; simp
        | true =>
          simp only [if_true] at h
          cases hl2 : Dict.require par ["w", "c", "lam"] with
          | error e => rw [hl2] at h; simp at h
          | ok u2 =>
            rw [hl2] at h
            simp only [Except.ok.injEq] at h
            obtain ⟨q, hq1, hq2⟩ := about_axis I0 m0 (Dict.getD par "w" 0) (Dict.getD par "c" 0)
              (Dict.getD par "lam" 0) x0 z0
            refine ⟨q, ?_, by simp, fun _ => hq1⟩
            rw [← h, hq2, htens, hbI, hbm, hbr]
    | true =>
      simp only [if_true] at h
      cases h1 : Dict.require par ["mF", "w", "rF"] with
      | error e => rw [h1] at h; simp at h
      | ok u1 =>
        rw [h1] at h
        simp only at h
        cases h2 : partInertiaTensor par "F" with
        | error e => rw [h2] at h; simp at h
        | ok IF =>
          rw [h2] at h
          simp only at h
          cases hl : Dict.require par ["lam"] with
          | error e => rw [hl] at h; simp at h
          | ok u =>
            rw [hl] at h
            simp only at h
            have hIF : IF = (Spec.frontWheel par).I := by
              unfold partInertiaTensor at h2
              dsimp only at h2
              rw [if_pos (by decide)] at h2
              split at h2
              · simp at h2
              · injection h2 with h2
                rw [← h2]; simp [Spec.frontWheel, planarBody]
            have hmass := hm rfl
            rw [hsm] at hmass
            simp only [if_true, List.map_cons, List.map_nil, List.sum_cons, List.sum_nil, add_zero] at hmass
            have hFr : (Spec.frontWheel par).r = ![Dict.getD par "w" 0, 0, -Dict.getD par "rF" 0] := rfl
            have hFm : (Spec.frontWheel par).m = Dict.getD par "mF" 0 := rfl
            obtain ⟨hc1, cx, cz, hc2, hc3⟩ := totalCom_two b (Spec.frontWheel par) x0 z0
              (Dict.getD par "w" 0) (-Dict.getD par "rF" 0) hbr hFr hmass
            rw [hbm, hFm] at hc1 hc2
            rw [hc1, hc2] at h
            simp only [cons_val_zero, cons_val] at h
            have htens : ∀ o, Spec.tensorAbout (Spec.steerBodies par hb fk true) o =
                parallelAxis b.I b.m (b.r - o) +
                parallelAxis (Spec.frontWheel par).I (Spec.frontWheel par).m ((Spec.frontWheel par).r - o) := by
              intro o; rw [ht]; simp [Spec.tensorAbout]
            have hcent : parallelAxis I0 m0 ![x0 - cx, 0, z0 - cz] +
                parallelAxis IF (Dict.getD par "mF" 0) ![Dict.getD par "w" 0 - cx, 0, -Dict.getD par "rF" 0 - cz] =
                Spec.tensorAbout (Spec.steerBodies par hb fk true) ![cx, 0, cz] := by
              rw [htens, hbI, hbm, hbr, hIF, hFm, hFr]
              congr 2 <;> (ext i; fin_cases i <;> simp)
            rw [hcent] at h
            cases ax with
            | false =>
              simp only [Bool.false_eq_true, if_false, Except.ok.injEq] at h
              refine ⟨![cx, 0, cz], h.symm, ?_, by simp⟩
              intro _
              unfold Spec.IsMassCentre
              rw [hsm, hsr]
              simpa using hc3
            | true =>
              simp only [if_true] at h
              cases hl2 : Dict.require par ["w", "c", "lam"] with
              | error e => rw [hl2] at h; simp at h
              | ok u2 =>
                rw [hl2] at h
                simp only [Except.ok.injEq] at h
                obtain ⟨q, hq1, hq2⟩ := about_axis (Spec.tensorAbout (Spec.steerBodies par hb fk true) ![cx, 0, cz])
                  (m0 + Dict.getD par "mF" 0) (Dict.getD par "w" 0) (Dict.getD par "c" 0)
                  (Dict.getD par "lam" 0) cx cz
                refine ⟨q, ?_, by simp, fun _ => hq1⟩
                rw [← h, hq2]
                congr 1
                rw [htens, htens, steiner_two b (Spec.frontWheel par) ![cx, 0, cz] q hc3, hbm, hFm]

/-- The third diagonal entry of the rotated tensor about a point of the steer axis is the
moment of inertia about that axis. -/
theorem rotated_entry (bodies : List Body) (w c lam t : ℝ) (hp : ∀ b ∈ bodies, b.r 1 = 0) :
    (rotateInertiaTensor (Spec.tensorAbout bodies (![w + c, 0, 0] + t • steerDir lam)) lam) 2 2 =
      (bodies.map fun b => axisMoment b.I (steerDir lam) +
        b.m * aheadOfAxis (w + c) lam (b.r 0) (b.r 2) ^ 2).sum := by
  have hsc := sin_sq_add_cos_sq lam
  have hent : ∀ A : Mat3, (rotateInertiaTensor A lam) 2 2 = axisMoment A (steerDir lam) := by
    intro A
    have := C25_rotation_axis_moment A lam ![0, 0, 1]
    have e : (rotY lam)ᵀ *ᵥ ![0, 0, 1] = steerDir lam := by
      ext i; fin_cases i <;> simp [rotY, steerDir, Matrix.mulVec, dotProduct, Fin.sum_univ_three]
    rw [e] at this
    rw [← this]
    simp [axisMoment, Matrix.mulVec, dotProduct, Fin.sum_univ_three]
  rw [hent]
  induction bodies with
  | nil => simp [Spec.tensorAbout, axisMoment]
  | cons b bs ih =>
    have ih' := ih fun x hx => hp x (List.mem_cons_of_mem _ hx)
    have hb := hp b (by simp)
    have hadd : ∀ A B : Mat3, axisMoment (A + B) (steerDir lam) =
        axisMoment A (steerDir lam) + axisMoment B (steerDir lam) := by
      intro A B; simp [axisMoment, Matrix.add_mulVec, dotProduct_add]
    have htens : Spec.tensorAbout (b :: bs) (![w + c, 0, 0] + t • steerDir lam) =
        parallelAxis b.I b.m (b.r - (![w + c, 0, 0] + t • steerDir lam)) +
          Spec.tensorAbout bs (![w + c, 0, 0] + t • steerDir lam) := rfl
    rw [htens, hadd, ih', List.map_cons, List.sum_cons]
    congr 1
    have hpa : ∀ (A : Mat3) (m : ℝ) (d : Vec3), parallelAxis A m d = A + parallelAxis 0 m d := by
      intro A m d; simp [parallelAxis]
    rw [hpa, hadd]
    congr 1
    simp [axisMoment, parallelAxis, Matrix.mulVec, dotProduct, Fin.sum_univ_three, steerDir, aheadOfAxis, hb]
    ring

/-- **C39.** With `aboutSteerAxis`, the last diagonal entry is the moment of inertia of the
requested bodies about the steer axis: the sum of their central moments about the axis
direction and of their masses times the squared distances to the axis. -/
theorem C39_about_steer_axis (par : Dict ℝ) (hb fk wh : Bool) (I : Mat3)
    (h : steerAssembly par hb fk wh true = .ok I)
    (hm : wh = true → ((Spec.steerBodies par hb fk wh).map fun b => b.m).sum ≠ 0) :
    I 2 2 = ((Spec.steerBodies par hb fk wh).map fun b =>
      axisMoment b.I (steerDir (Dict.getD par "lam" 0)) + b.m *
        aheadOfAxis (Dict.getD par "w" 0 + Dict.getD par "c" 0) (Dict.getD par "lam" 0) (b.r 0) (b.r 2) ^ 2).sum := by
  obtain ⟨q, h1, _, h3⟩ := C39_assembly_tensor par hb fk wh true I h hm
  obtain ⟨t, rfl⟩ := h3 rfl
  rw [h1]
  apply rotated_entry
  intro b hb'
  unfold Spec.steerBodies at hb'
  rcases List.mem_append.1 hb' with hb' | hb'
  · split_ifs at hb' <;> simp at hb' <;> subst hb' <;> simp [Spec.partBody, planarBody]
  · split_ifs at hb' <;> simp at hb' <;> subst hb' <;> simp [Spec.frontWheel, planarBody]

/-- **C39.** For the whole front assembly this is the entry `I_A-lambda-lambda` of the
canonical equations. -/
theorem C39_is_canonical_IAll (par : Dict ℝ) (I : Mat3)
    (h : steerAssembly par true true true true = .ok I)
    (hm : Dict.getD par "mH" 0 + Dict.getD par "mF" 0 ≠ 0) :
    I 2 2 = (Bench.ofDict par).IAll := by
  have hmA : (Bench.ofDict par).mA ≠ 0 := by simpa [Bench.mA, Bench.ofDict] using hm
  have h1 := C39_about_steer_axis par true true true I h (by
    intro _; simpa [Spec.steerBodies, Spec.partBody, Spec.frontWheel, planarBody] using hm)
  rw [h1, IAll_eq _ hmA, momA_eq]
  simp [Spec.steerBodies, Spec.partBody, Spec.frontWheel, planarBody, axisMoment, steerDir, aheadOfAxis,
    Matrix.mulVec, dotProduct, Fin.sum_univ_three, Bench.ofDict, Bench.mA]
  ring

/-- **C39.** Asking for a handlebar or fork that was not measured on its own (a missing mass,
coordinate or moment of inertia) is a `ValueError`, whatever else is asked for. -/
theorem C39_unmeasured_part (par : Dict ℝ) (hb fk wh ax : Bool) (s : String)
    (hs : (hb = true ∧ fk = true ∧ s = "H") ∨ (hb = true ∧ fk = false ∧ s = "G") ∨
      (hb = false ∧ fk = true ∧ s = "S"))
    (hmiss : ∃ k ∈ ["m" ++ s, "x" ++ s, "z" ++ s, "I" ++ s ++ "xx", "I" ++ s ++ "xz", "I" ++ s ++ "yy",
      "I" ++ s ++ "zz"], par.has k = false) :
    steerAssembly par hb fk wh ax = .error .valueError := by
  have hns : s ∉ ["F", "R", "D", "FR", "RD", "FRD", ""] := by
    rcases hs with ⟨_, _, rfl⟩ | ⟨_, _, rfl⟩ | ⟨_, _, rfl⟩ <;> decide
  have hread : steerRead par s = .error .valueError := by
    unfold steerRead
    split
    · rename_i I hI hr
      exfalso
      obtain ⟨k, hk, hno⟩ := hmiss
      have h1 := require_has hr
      unfold partInertiaTensor at hI
      dsimp only at hI
      rw [if_neg hns] at hI
      split at hI
      · simp at hI
      · rename_i hr2
        have h2 := require_has hr2
        have : par.has k = true := by
          simp only [List.mem_cons, List.not_mem_nil, or_false] at hk h1 h2
          rcases hk with rfl | rfl | rfl | rfl | rfl | rfl | rfl
          · exact h1 _ (by simp)
          · exact h1 _ (by simp)
          · exact h1 _ (by simp)
          · exact h2 _ (by simp)
          · exact h2 _ (by simp)
          · exact h2 _ (by simp)
          · exact h2 _ (by simp)
        rw [this] at hno
        simp at hno
    · rfl
  have hpart : steerPart par hb fk = .error .valueError := by
    unfold steerPart
    rcases hs with ⟨rfl, rfl, rfl⟩ | ⟨rfl, rfl, rfl⟩ | ⟨rfl, rfl, rfl⟩ <;> simpa using hread
  unfold steerAssembly
  dsimp only
  rw [hpart]

/-- non-vacuity of C39: a bicycle for which the whole assembly is defined. -/
example : ∃ I, steerAssembly [("IBxx", 1), ("IHxx", 1), ("IHxz", 0), ("IHyy", 1), ("IHzz", 2), ("mH", 4),
      ("xH", 1), ("zH", -1), ("mF", 2), ("w", 1), ("rF", 1), ("IFxx", 1), ("IFyy", 2), ("lam", 0), ("c", 0)]
    true true true true = .ok I := by
  simp [steerAssembly, steerPart, steerRead, partInertiaTensor, Dict.require, Dict.find?]

/-! ## C43 -/

/-- **C43.** A non-empty phase curve is shifted as a whole by a whole number of turns, and its
first value ends between -180 and 180 degrees; an empty one raises `IndexError`. -/
theorem C43_phase_alignment (y : ℝ) (ys : List ℝ) :
    (∃ n : ℤ, alignPhase (y :: ys) = .ok ((y :: ys).map fun v => v - 360 * n) ∧
      -180 ≤ y - 360 * n ∧ y - 360 * n ≤ 180) ∧
    alignPhase [] = .error .indexError := by
  refine ⟨?_, rfl⟩
  set k : ℤ := ⌊|y / 180|⌋ with hk
  set n : ℤ := ⌈((k : ℤ) : ℝ) / 2⌉ with hn
  have hk1 : (k : ℝ) ≤ |y / 180| := Int.floor_le _
  have hk2 : |y / 180| < k + 1 := Int.lt_floor_add_one _
  have hn1 : (k : ℝ) / 2 ≤ n := Int.le_ceil _
  have hn2 : (n : ℝ) < k / 2 + 1 := Int.ceil_lt_add_one _
  have hz : k ≤ 2 * n ∧ 2 * n ≤ k + 1 := by
    constructor
    · have : (k : ℝ) ≤ 2 * n := by linarith
      exact_mod_cast this
    · have : (2 * n : ℝ) < k + 2 := by linarith
      have : 2 * n < k + 2 := by exact_mod_cast this
      omega
  have hz1 : (k : ℝ) ≤ 2 * n := by exact_mod_cast hz.1
  have hz2 : (2 * n : ℝ) ≤ k + 1 := by exact_mod_cast hz.2
  have hal : alignPhase (y :: ys) = .ok ((y :: ys).map fun v => v - Real.sign y * n * 360) := rfl
  rcases lt_trichotomy y 0 with h | h | h
  · have habs : |y / 180| = -y / 180 := by rw [abs_of_neg (by linarith)]; ring
    rw [habs] at hk1 hk2
    refine ⟨-n, ?_, ?_, ?_⟩
    · rw [hal, Real.sign_of_neg h]
      congr 1
      refine List.map_congr_left fun v _ => ?_
      push_cast; ring
    · push_cast; linarith
    · push_cast; linarith
  · refine ⟨0, ?_, ?_, ?_⟩
    · rw [hal, h, Real.sign_zero]
      congr 1
      refine List.map_congr_left fun v _ => ?_
      simp
    · rw [h]; norm_num
    · rw [h]; norm_num
  · have habs : |y / 180| = y / 180 := abs_of_pos (by linarith)
    rw [habs] at hk1 hk2
    refine ⟨n, ?_, ?_, ?_⟩
    · rw [hal, Real.sign_of_pos h]
      congr 1
      refine List.map_congr_left fun v _ => ?_
      ring
    · linarith
    · linarith

/-- non-vacuity of C43 -/
example : alignPhase [] = .error .indexError := rfl

/-! ## C82: the inertia ellipses -/

/-- The row of a matrix whose rows are the principal directions that belongs to the y axis. -/
def Spec.IsYRow (C : Mat3) (i : Fin 3) : Prop := ∀ k, k ≠ 1 → C i k = 0

/-- **C82, partial.** When the two other principal directions do not have entries that sum to
one, and the y direction is `+y`, the ellipse leaves out exactly the y direction.  Missing:
other tensors, see the two counterexamples. -/
theorem C82_y_row_partial (C : Mat3) (i : Fin 3) (hi : ∀ k, C i k = if k = 1 then 1 else 0)
    (hother : ∀ j, j ≠ i → 1e-10 ≤ |C j 0 + C j 1 + C j 2 - 1|) :
    ellipseYRow C = some i ∧ Spec.IsYRow C i := by
  have hrw : ∀ j, (C j 0 - 0) + (C j 1 - 1) + (C j 2 - 0) = C j 0 + C j 1 + C j 2 - 1 := by intro j; ring
  have hi0 : C i 0 + C i 1 + C i 2 - 1 = 0 := by rw [hi 0, hi 1, hi 2]; simp
  refine ⟨?_, fun k hk => by rw [hi k, if_neg hk]⟩
  unfold ellipseYRow
  dsimp only
  simp only [hrw]
  have hpos : |C i 0 + C i 1 + C i 2 - 1| < 1e-10 := by rw [hi0]; norm_num
  have hneg : ∀ j, j ≠ i → ¬ |C j 0 + C j 1 + C j 2 - 1| < 1e-10 := fun j hj => not_lt.2 (hother j hj)
  fin_cases i
  · simp only [Fin.zero_eta] at *
    rw [if_neg (hneg 2 (by decide)), if_neg (hneg 1 (by decide)), if_pos hpos]
  · simp only [Fin.mk_one] at *
    rw [if_neg (hneg 2 (by decide)), if_pos hpos]
  · simp only [Fin.reduceFinMk] at *
    rw [if_pos hpos]

/-- **C82 fails.** For a diagonal tensor with `Ixx < Iyy < Izz` the principal directions are
the axes, every row passes the test and the z direction is left out instead of y. -/
theorem C82_diagonal_tensor_wrong_row :
    ellipseYRow (1 : Mat3) = some 2 ∧ ¬ Spec.IsYRow (1 : Mat3) 2 ∧ Spec.IsYRow (1 : Mat3) 1 := by
  refine ⟨?_, ?_, ?_⟩
  · have h : |((1 : Mat3) 2 0 - 0) + ((1 : Mat3) 2 1 - 1) + ((1 : Mat3) 2 2 - 0)| < 1e-10 := by
      simp [Matrix.one_apply]; norm_num
    unfold ellipseYRow
    dsimp only
    rw [if_pos h]
  · intro h; have := h 2 (by decide); simp at this
  · intro k hk; simp [Matrix.one_apply, Ne.symm hk]

/-- **C82 fails.** When the eigenvector routine returns `-y` and no other row sums to one, no
row is found. -/
theorem C82_negative_y_not_found :
    ellipseYRow !![0, -1, 0; -1, 0, 0; 0, 0, -1] = none := by
  unfold ellipseYRow
  dsimp only
  rw [if_neg, if_neg, if_neg] <;> simp <;> norm_num

/-! ## C83: lines of the geometry plot -/

/-- **C83.** The dashed line meets the ground at `w + c`, the point where the steer axis does,
unless the two plotted points are at the same height. -/
theorem C83_steer_axis_ground_point (w c lam rR rF : ℝ) (hc : cos lam ≠ 0)
    (p0 p1 p2 p3 : ℝ × ℝ) (h : fundamentalGeometryPlotData w c lam rR rF = [p0, p1, p2, p3])
    (hne : p1.2 ≠ p2.2) : steerGroundX p1 p2 = w + c := by
  simp only [fundamentalGeometryPlotData, List.cons.injEq, and_true] at h
  obtain ⟨_, h1, h2, _⟩ := h
  have hsc := sin_sq_add_cos_sq lam
  have htan : tan lam = sin lam / cos lam := tan_eq_sin_div_cos lam
  subst h1 h2
  dsimp only at hne
  unfold steerGroundX
  dsimp only
  have hne' : -rR - cos lam * (c + w - rR * tan lam) * sin lam -
      (-rF + -cos lam * (c - rF * tan lam) * sin lam) ≠ 0 := sub_ne_zero.2 hne
  rw [add_div_eq_mul_add_div _ _ hne', div_eq_iff hne', htan]
  field_simp
  ring_nf
  have h4 : sin lam ^ 2 = 1 - cos lam ^ 2 := by linarith
  rw [h4]
  ring

/-- **C83.** The line drawn for a pendulum axis lies on the measured line (drawn with z
upwards), is centred at the point of that line closest to the mass centre and has the
length that was asked for. -/
theorem C83_pendulum_segment (m b xcom zcom L : ℝ) (hL : 0 ≤ L) :
    let s := pendulumSegment m b xcom zcom L
    let p := projectPointOnLine (m, b) (xcom, zcom)
    (-s.1.2 = m * s.1.1 + b ∧ -s.2.2 = m * s.2.1 + b) ∧
    ((s.1.1 + s.2.1) / 2 = p.1 ∧ -(s.1.2 + s.2.2) / 2 = p.2) ∧
    √((s.2.1 - s.1.1) ^ 2 + (s.2.2 - s.1.2) ^ 2) = L := by
  intro s p
  have hm : (0 : ℝ) < 1 + m ^ 2 := by positivity
  have hp : p.2 = m * p.1 + b := by
    simp only [p, projectPointOnLine]
    have : m ^ 2 + 1 ≠ 0 := by positivity
    field_simp; ring
  refine ⟨⟨?_, ?_⟩, ⟨?_, ?_⟩, ?_⟩
  · simp only [s, pendulumSegment]; ring
  · simp only [s, pendulumSegment]; ring
  · simp only [s, p, pendulumSegment]; ring
  · rw [hp]; simp only [s, p, pendulumSegment]; ring
  · have e : (s.2.1 - s.1.1) ^ 2 + (s.2.2 - s.1.2) ^ 2 = L ^ 2 := by
      have hcos : cos (arctan m) ^ 2 * (1 + m ^ 2) = 1 := by
        rw [Real.cos_arctan, div_pow, Real.sq_sqrt hm.le]; field_simp
      simp only [s, pendulumSegment]
      linear_combination L ^ 2 * hcos
    rw [e, Real.sqrt_sq hL]

end BP
