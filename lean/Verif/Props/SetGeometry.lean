import Verif.Props.ParameterSets
import Verif.Spec.Plane

/-!
# Parameter sets: C64 mass centres and tensors, C88 drawn inertia, C89 person, C90 steer axis
-/

set_option linter.unusedSimpArgs false

namespace BP

open Real Matrix Spec

/-! ## C64 -/

/-- Where a body's mass centre is: the wheels' at their hubs above the contact points, the
others' at the stored coordinates, all in the symmetry plane. -/
def Spec.bodyCenter (p : Dict ℝ) (body : String) : V3 :=
  let v := fun k => p.getD k 0
  if body = "R" then ![0, 0, -v "rR"]
  else if body = "F" then ![v "w", 0, -v "rF"]
  else ![v ("x" ++ body), 0, v ("z" ++ body)]

/-- The classes that locate bodies. -/
def Spec.Locates (kind : SetKind) : Prop := kind = .meijaard ∨ kind = .feedback ∨ kind = .moore2019

/-- What a valid set gives numerically. -/
def Spec.ValidNums (kind : SetKind) (p : Dict ℝ) : Prop := ∀ k ∈ kind.parStrings.keys, p.has k = true

theorem validNums_of_valid (s : PSet) (h : Valid s) : ValidNums s.kind (nums s.parameters) := by
  intro k hk
  obtain ⟨v, hv, _⟩ := h k hk
  rw [has_nums]; exact (Dict.has_iff_exists _ _).2 ⟨v, hv⟩

theorem find?_eq_getD {p : Dict ℝ} {k : String} (h : p.has k = true) : p.find? k = some (p.getD k 0) := by
  obtain ⟨v, hv⟩ := (Dict.has_iff_exists _ _).1 h
  simp [Dict.getD, hv]

/-- The derived entries of a valid set. -/
theorem extended_ok (kind : SetKind) (p : Dict ℝ) (hl : Locates kind) (hv : ValidNums kind p) :
    ∃ e, derived kind p = .ok e ∧ extended kind p = .ok (p.update e) ∧ e.keys.Nodup := by
  have hreq : ∀ L : List String, (∀ k ∈ L, k ∈ kind.parStrings.keys) → Dict.require p L = .ok () := by
    intro L hL
    exact (Dict.require_ok_iff p L).2 fun k hk => hv k (hL k hk)
  rcases hl with rfl | rfl | rfl
  · have h := hreq ["IFxx", "IRxx", "w", "rF", "rR"] (by decide)
    refine ⟨_, by simp only [derived]; rw [h], by simp only [extended, derived]; rw [h]; rfl, ?_⟩
    simp [Dict.keys]
  · have h := hreq ["IFxx", "IRxx", "w", "rF", "rR"] (by decide)
    refine ⟨_, by simp only [derived]; rw [h], by simp only [extended, derived]; rw [h]; rfl, ?_⟩
    simp [Dict.keys]
  · have h := hreq ["w", "rR", "rF", "kRaa", "kFaa"] (by decide)
    refine ⟨_, by simp only [derived]; rw [h], by simp only [extended, derived]; rw [h]; rfl, ?_⟩
    simp [Dict.keys]

theorem extended_get (p e : Dict ℝ) (hn : e.keys.Nodup) (k : String) (x : ℝ)
    (h : (e.find? k).or (p.find? k) = some x) : (p.update e).get k = .ok x := by
  unfold Dict.get
  rw [Dict.find?_update _ _ _ hn]
  cases he : e.find? k with
  | none => rw [he] at h; simp only [Option.none_or] at h; simp [h]
  | some v => rw [he] at h; simp at h; simp [h]

/-- **C64.** Every body of a valid set is located at its mass centre; extra entries of the
dictionary, such as an `xF` or a `yB`, have no influence. -/
theorem C64_body_center (kind : SetKind) (p : Dict ℝ) (hl : Locates kind) (hv : ValidNums kind p)
    (body : String) (hb : body ∈ kind.bodyLabels) :
    formMassCenterVector kind p body = .ok (bodyCenter p body) := by
  obtain ⟨e, he, hx, hn⟩ := extended_ok kind p hl hv
  have hf : ∀ k, k ∈ kind.parStrings.keys → p.find? k = some (p.getD k 0) := fun k hk =>
    find?_eq_getD (hv k hk)
  unfold formMassCenterVector
  rw [hx]
  simp only
  have key : ∀ x y z, (e.find? ("x" ++ body)).or (p.find? ("x" ++ body)) = some x →
      (e.find? ("y" ++ body)).or (p.find? ("y" ++ body)) = some y →
      (e.find? ("z" ++ body)).or (p.find? ("z" ++ body)) = some z → bodyCenter p body = ![x, y, z] →
      ((p.update e).get ("x" ++ body)).bind (fun x => ((p.update e).get ("y" ++ body)).bind fun y =>
        ((p.update e).get ("z" ++ body)).map fun z => ![x, y, z]) = .ok (bodyCenter p body) := by
    intro x y z h1 h2 h3 h4
    rw [extended_get p e hn _ _ h1, extended_get p e hn _ _ h2, extended_get p e hn _ _ h3, h4]
    rfl
  have hreq : ∀ L : List String, (∀ k ∈ L, k ∈ kind.parStrings.keys) → Dict.require p L = .ok () := by
    intro L hL
    exact (Dict.require_ok_iff p L).2 fun k hk => hv k (hL k hk)
  rcases hl with rfl | rfl | rfl
  all_goals
    simp only [derived] at he
    first
      | rw [hreq ["IFxx", "IRxx", "w", "rF", "rR"] (by decide)] at he
      | rw [hreq ["w", "rR", "rF", "kRaa", "kFaa"] (by decide)] at he
    simp only [Except.ok.injEq] at he
    subst he
    simp only [SetKind.bodyLabels, List.mem_cons, List.not_mem_nil, or_false] at hb
    rcases hb with rfl | rfl | rfl | rfl | rfl
  · exact key (p.getD "xB" 0) 0 (p.getD "zB" 0) (by simp [Dict.find?, hf "xB" (by decide)])
      (by simp [Dict.find?]) (by simp [Dict.find?, hf "zB" (by decide)]) (by simp [bodyCenter])
  · exact key (p.getD "w" 0) 0 (-p.getD "rF" 0) (by simp [Dict.find?]) (by simp [Dict.find?])
      (by simp [Dict.find?]) (by simp [bodyCenter])
  · exact key (p.getD "xH" 0) 0 (p.getD "zH" 0) (by simp [Dict.find?, hf "xH" (by decide)])
      (by simp [Dict.find?]) (by simp [Dict.find?, hf "zH" (by decide)]) (by simp [bodyCenter])
  · exact key 0 0 (-p.getD "rR" 0) (by simp [Dict.find?]) (by simp [Dict.find?])
      (by simp [Dict.find?]) (by simp [bodyCenter])
  · exact key (p.getD "xB" 0) 0 (p.getD "zB" 0) (by simp [Dict.find?, hf "xB" (by decide)])
      (by simp [Dict.find?]) (by simp [Dict.find?, hf "zB" (by decide)]) (by simp [bodyCenter])
  · exact key (p.getD "w" 0) 0 (-p.getD "rF" 0) (by simp [Dict.find?]) (by simp [Dict.find?])
      (by simp [Dict.find?]) (by simp [bodyCenter])
  · exact key (p.getD "xH" 0) 0 (p.getD "zH" 0) (by simp [Dict.find?, hf "xH" (by decide)])
      (by simp [Dict.find?]) (by simp [Dict.find?, hf "zH" (by decide)]) (by simp [bodyCenter])
  · exact key 0 0 (-p.getD "rR" 0) (by simp [Dict.find?]) (by simp [Dict.find?])
      (by simp [Dict.find?]) (by simp [bodyCenter])
  · exact key (p.getD "xD" 0) 0 (p.getD "zD" 0) (by simp [Dict.find?, hf "xD" (by decide)])
      (by simp [Dict.find?]) (by simp [Dict.find?, hf "zD" (by decide)]) (by simp [bodyCenter])
  · exact key (p.getD "w" 0) 0 (-p.getD "rF" 0) (by simp [Dict.find?]) (by simp [Dict.find?])
      (by simp [Dict.find?]) (by simp [bodyCenter])
  · exact key (p.getD "xH" 0) 0 (p.getD "zH" 0) (by simp [Dict.find?, hf "xH" (by decide)])
      (by simp [Dict.find?]) (by simp [Dict.find?, hf "zH" (by decide)]) (by simp [bodyCenter])
  · exact key (p.getD "xP" 0) 0 (p.getD "zP" 0) (by simp [Dict.find?, hf "xP" (by decide)])
      (by simp [Dict.find?]) (by simp [Dict.find?, hf "zP" (by decide)]) (by simp [bodyCenter])
  · exact key 0 0 (-p.getD "rR" 0) (by simp [Dict.find?]) (by simp [Dict.find?])
      (by simp [Dict.find?]) (by simp [bodyCenter])

/-- Mass and centre of the bodies of a list. -/
def Spec.bodyList (p : Dict ℝ) (bodies : List String) : List (ℝ × V3) :=
  bodies.map fun b => (p.getD ("m" ++ b) 0, bodyCenter p b)

theorem massAndCenter_ok (kind : SetKind) (p : Dict ℝ) (hl : Locates kind) (hv : ValidNums kind p)
    (body : String) (hb : body ∈ kind.bodyLabels) :
    massAndCenter kind p body = .ok (p.getD ("m" ++ body) 0, bodyCenter p body) := by
  unfold massAndCenter
  have hm : "m" ++ body ∈ kind.parStrings.keys := by
    rcases hl with rfl | rfl | rfl <;> revert body <;> decide
  rw [Dict.get, find?_eq_getD (hv _ hm), C64_body_center kind p hl hv body hb]
  rfl

theorem mapM_eq_map {A B : Type} {f : A → Except PyErr B} {g : A → B} {l : List A}
    (h : ∀ a ∈ l, f a = .ok (g a)) : l.mapM f = .ok (l.map g) := by
  induction l with
  | nil => rfl
  | cons a l ih =>
    rw [List.mapM_cons, h a (by simp), ih fun x hx => h x (List.mem_cons_of_mem _ hx)]
    rfl

/-- The mass centre of a list of bodies of the set. -/
theorem massCenterOf_eq (kind : SetKind) (p : Dict ℝ) (hl : Locates kind) (hv : ValidNums kind p)
    (bodies : List String) (hb : ∀ b ∈ bodies, b ∈ kind.bodyLabels) (h2 : 2 ≤ bodies.length) :
    massCenterOf kind p bodies = .ok (totalCom (bodyList p bodies)).2 := by
  match bodies, h2 with
  | a :: b :: l, _ =>
    show ((a :: b :: l).mapM (massAndCenter kind p)).map (fun l => (totalCom l).2) = _
    rw [mapM_eq_map (g := fun b => (p.getD ("m" ++ b) 0, bodyCenter p b))
      fun x hx => massAndCenter_ok kind p hl hv x (hb x hx)]
    rfl

/-- **C64.** `mass_center_of` for any list of bodies of a valid set: the centre `c` it returns
has `(Σ m) c = Σ m r` (one body: its centre); without bodies it raises. -/
theorem C64_mass_center_of (kind : SetKind) (p : Dict ℝ) (hl : Locates kind) (hv : ValidNums kind p)
    (bodies : List String) (hb : ∀ b ∈ bodies, b ∈ kind.bodyLabels)
    (hm : (bodies.map fun b => p.getD ("m" ++ b) 0).sum ≠ 0) :
    ∃ c, massCenterOf kind p bodies = .ok c ∧
      (bodies.map fun b => p.getD ("m" ++ b) 0).sum • c =
        (bodies.map fun b => p.getD ("m" ++ b) 0 • bodyCenter p b).sum := by
  match bodies with
  | [] => simp at hm
  | [b] =>
    refine ⟨bodyCenter p b, C64_body_center kind p hl hv b (hb b (by simp)), by simp⟩
  | a :: b :: l =>
    refine ⟨_, massCenterOf_eq kind p hl hv _ hb (by simp), ?_⟩
    have h := (C30_weighted_mean (bodyList p (a :: b :: l)) (by
      simpa [bodyList, Function.comp_def] using hm)).2
    funext i
    have hi := h i
    have e1 : (totalCom (bodyList p (a :: b :: l))).1 =
        ((a :: b :: l).map fun b => p.getD ("m" ++ b) 0).sum := by
      simp [totalCom, bodyList, Function.comp_def]
    rw [e1] at hi
    rw [Pi.smul_apply, smul_eq_mul, hi]
    have hsum : ∀ (L : List String), (L.map fun b => p.getD ("m" ++ b) 0 • bodyCenter p b).sum i =
        (L.map fun b => p.getD ("m" ++ b) 0 * bodyCenter p b i).sum := by
      intro L
      induction L with
      | nil => simp
      | cons x L ih => simp only [List.map_cons, List.sum_cons, Pi.add_apply, ih, Pi.smul_apply, smul_eq_mul]
    rw [hsum]
    simp only [bodyList, List.map_map, Function.comp_def]

/-- **C64.** The result does not depend on the order of the bodies. -/
theorem C64_order (kind : SetKind) (p : Dict ℝ) (hl : Locates kind) (hv : ValidNums kind p)
    (bodies bodies' : List String) (hb : ∀ b ∈ bodies, b ∈ kind.bodyLabels)
    (hm : (bodies.map fun b => p.getD ("m" ++ b) 0).sum ≠ 0) (hp : bodies.Perm bodies') :
    massCenterOf kind p bodies = massCenterOf kind p bodies' := by
  obtain ⟨c, h1, h2⟩ := C64_mass_center_of kind p hl hv bodies hb hm
  have e1 := (hp.map fun b => p.getD ("m" ++ b) 0).sum_eq
  have e2 := (hp.map fun b => p.getD ("m" ++ b) 0 • bodyCenter p b).sum_eq
  obtain ⟨c', h1', h2'⟩ := C64_mass_center_of kind p hl hv bodies' (fun b h => hb b (hp.mem_iff.2 h))
    (by rw [← e1]; exact hm)
  rw [h1, h1']
  rw [← e1, ← e2, ← h2] at h2'
  exact congrArg _ (smul_right_injective _ hm h2').symm

/-- The central inertia tensor of a body of the benchmark model: the wheels are symmetric about
their axle, the frames about the plane. -/
def Spec.bodyTensor (p : Dict ℝ) (body : String) : Matrix (Fin 3) (Fin 3) ℝ :=
  let v := fun k => p.getD ("I" ++ body ++ k) 0
  if body = "R" ∨ body = "F" then !![v "xx", 0, 0; 0, v "yy", 0; 0, 0, v "xx"]
  else !![v "xx", 0, v "xz"; 0, v "yy", 0; v "xz", 0, v "zz"]

/-- **C64.** `form_inertia_tensor` returns the central inertia tensor of each body. -/
theorem C64_inertia_tensor (kind : SetKind) (p : Dict ℝ) (hl : kind = .meijaard ∨ kind = .feedback)
    (hv : ValidNums kind p) (body : String) (hb : body ∈ kind.bodyLabels) :
    formInertiaTensor kind p body = .ok (bodyTensor p body) := by
  have hl' : Locates kind := by rcases hl with h | h <;> simp [Locates, h]
  obtain ⟨e, he, hx, hn⟩ := extended_ok kind p hl' hv
  have hf : ∀ k, k ∈ kind.parStrings.keys → p.find? k = some (p.getD k 0) := fun k hk =>
    find?_eq_getD (hv k hk)
  unfold formInertiaTensor
  rw [if_pos hl, hx]
  simp only
  have key : ∀ xx xz yy zz,
      (e.find? ("I" ++ body ++ "xx")).or (p.find? ("I" ++ body ++ "xx")) = some xx →
      (e.find? ("I" ++ body ++ "xz")).or (p.find? ("I" ++ body ++ "xz")) = some xz →
      (e.find? ("I" ++ body ++ "yy")).or (p.find? ("I" ++ body ++ "yy")) = some yy →
      (e.find? ("I" ++ body ++ "zz")).or (p.find? ("I" ++ body ++ "zz")) = some zz →
      bodyTensor p body = !![xx, 0, xz; 0, yy, 0; xz, 0, zz] →
      ((p.update e).get ("I" ++ body ++ "xx")).bind (fun xx =>
        ((p.update e).get ("I" ++ body ++ "xz")).bind fun xz =>
        ((p.update e).get ("I" ++ body ++ "yy")).bind fun yy =>
        ((p.update e).get ("I" ++ body ++ "zz")).map fun zz =>
          !![xx, 0, xz; 0, yy, 0; xz, 0, zz]) = .ok (bodyTensor p body) := by
    intro xx xz yy zz h1 h2 h3 h4 h5
    rw [extended_get p e hn _ _ h1, extended_get p e hn _ _ h2, extended_get p e hn _ _ h3,
      extended_get p e hn _ _ h4, h5]
    rfl
  have hreq : ∀ L : List String, (∀ k ∈ L, k ∈ kind.parStrings.keys) → Dict.require p L = .ok () := by
    intro L hL
    exact (Dict.require_ok_iff p L).2 fun k hk => hv k (hL k hk)
  rcases hl with rfl | rfl
  all_goals
    simp only [derived] at he
    rw [hreq ["IFxx", "IRxx", "w", "rF", "rR"] (by decide)] at he
    simp only [Except.ok.injEq] at he
    subst he
    simp only [SetKind.bodyLabels, List.mem_cons, List.not_mem_nil, or_false] at hb
    rcases hb with rfl | rfl | rfl | rfl
  · exact key (p.getD "IBxx" 0) (p.getD "IBxz" 0) (p.getD "IByy" 0) (p.getD "IBzz" 0)
      (by simp [Dict.find?, hf "IBxx" (by decide)]) (by simp [Dict.find?, hf "IBxz" (by decide)])
      (by simp [Dict.find?, hf "IByy" (by decide)]) (by simp [Dict.find?, hf "IBzz" (by decide)])
      (by simp [bodyTensor])
  · exact key (p.getD "IFxx" 0) 0 (p.getD "IFyy" 0) (p.getD "IFxx" 0)
      (by simp [Dict.find?, hf "IFxx" (by decide)]) (by simp [Dict.find?])
      (by simp [Dict.find?, hf "IFyy" (by decide)]) (by simp [Dict.find?]) (by simp [bodyTensor])
  · exact key (p.getD "IHxx" 0) (p.getD "IHxz" 0) (p.getD "IHyy" 0) (p.getD "IHzz" 0)
      (by simp [Dict.find?, hf "IHxx" (by decide)]) (by simp [Dict.find?, hf "IHxz" (by decide)])
      (by simp [Dict.find?, hf "IHyy" (by decide)]) (by simp [Dict.find?, hf "IHzz" (by decide)])
      (by simp [bodyTensor])
  · exact key (p.getD "IRxx" 0) 0 (p.getD "IRyy" 0) (p.getD "IRxx" 0)
      (by simp [Dict.find?, hf "IRxx" (by decide)]) (by simp [Dict.find?])
      (by simp [Dict.find?, hf "IRyy" (by decide)]) (by simp [Dict.find?]) (by simp [bodyTensor])
  · exact key (p.getD "IBxx" 0) (p.getD "IBxz" 0) (p.getD "IByy" 0) (p.getD "IBzz" 0)
      (by simp [Dict.find?, hf "IBxx" (by decide)]) (by simp [Dict.find?, hf "IBxz" (by decide)])
      (by simp [Dict.find?, hf "IByy" (by decide)]) (by simp [Dict.find?, hf "IBzz" (by decide)])
      (by simp [bodyTensor])
  · exact key (p.getD "IFxx" 0) 0 (p.getD "IFyy" 0) (p.getD "IFxx" 0)
      (by simp [Dict.find?, hf "IFxx" (by decide)]) (by simp [Dict.find?])
      (by simp [Dict.find?, hf "IFyy" (by decide)]) (by simp [Dict.find?]) (by simp [bodyTensor])
  · exact key (p.getD "IHxx" 0) (p.getD "IHxz" 0) (p.getD "IHyy" 0) (p.getD "IHzz" 0)
      (by simp [Dict.find?, hf "IHxx" (by decide)]) (by simp [Dict.find?, hf "IHxz" (by decide)])
      (by simp [Dict.find?, hf "IHyy" (by decide)]) (by simp [Dict.find?, hf "IHzz" (by decide)])
      (by simp [bodyTensor])
  · exact key (p.getD "IRxx" 0) 0 (p.getD "IRyy" 0) (p.getD "IRxx" 0)
      (by simp [Dict.find?, hf "IRxx" (by decide)]) (by simp [Dict.find?])
      (by simp [Dict.find?, hf "IRyy" (by decide)]) (by simp [Dict.find?]) (by simp [bodyTensor])

/-- **C64.** Converting a Moore2019 set keeps the mass centres: that of the frame B is that of
frame D and person P together, and that of the whole bicycle is the same. -/
theorem C64_conversion_keeps_mass_centers (b2m : Dict SVal → Except PyErr (Dict SVal)) (s t : PSet)
    (hk : s.kind = .moore2019) (hs : Valid s)
    (h : toParameterization b2m s "Meijaard2007" = .ok t) :
    let p := nums s.parameters
    let q := nums t.parameters
    (p.getD "mD" 0 + p.getD "mP" 0 ≠ 0 →
      massCenterOf .meijaard q ["B"] = massCenterOf .moore2019 p ["P", "D"]) ∧
    (p.getD "mD" 0 + p.getD "mP" 0 ≠ 0 →
      p.getD "mD" 0 + p.getD "mF" 0 + p.getD "mH" 0 + p.getD "mP" 0 + p.getD "mR" 0 ≠ 0 →
      massCenterOf .meijaard q ["B", "F", "H", "R"] = massCenterOf .moore2019 p ["D", "F", "H", "P", "R"]) := by
  intro p q
  have hy : ∀ k ∈ ["yD", "yP", "yH"], s.parameters.has k = true := by
    by_contra hc
    push Not at hc
    obtain ⟨k, hk1, hk2⟩ := hc
    obtain ⟨k', _, _, h'⟩ := (C62_moore2019_to_meijaard_partial b2m s hk hs).2
      ⟨k, hk1, by simpa using hk2⟩
    rw [h'] at h; cases h
  obtain ⟨t', b, ht', hk', _, hb, hq⟩ := (C62_moore2019_to_meijaard_partial b2m s hk hs).1 hy
  rw [h] at ht'
  simp only [Except.ok.injEq] at ht'
  subst ht'
  have hp : ValidNums .moore2019 p := by
    have := validNums_of_valid s hs
    rwa [hk] at this
  have hqv : ValidNums .meijaard q := by
    have := validNums_of_valid t ((C62_result_is_what_was_asked b2m s t _).2 h hs).1
    rwa [hk'] at this
  change q = b at hq
  have l1 : Locates .meijaard := by simp [Locates]
  have l2 : Locates .moore2019 := by simp [Locates]
  have vals : ∀ k : String, q.getD k 0 = b.getD k 0 := fun k => by rw [hq]
  have hbl : b = (match convertPrincipalToBenchmark p with | .ok b => b | .error _ => []) := by
    change convertPrincipalToBenchmark p = _ at hb
    rw [hb]
  have hreq : Dict.require p principalKeys = .ok () := by
    change convertPrincipalToBenchmark p = _ at hb
    unfold convertPrincipalToBenchmark at hb
    cases hr : Dict.require p principalKeys with
    | error e => rw [hr] at hb; simp at hb
    | ok _ => rfl
  have vmB : q.getD "mB" 0 = p.getD "mD" 0 + p.getD "mP" 0 := by
    rw [vals, hbl]; simp [convertPrincipalToBenchmark, hreq, Dict.getD, Dict.find?, totalCom]
  have vxB : q.getD "xB" 0 = (p.getD "mD" 0 * p.getD "xD" 0 + p.getD "mP" 0 * p.getD "xP" 0) /
      (p.getD "mD" 0 + p.getD "mP" 0) := by
    rw [vals, hbl]; simp [convertPrincipalToBenchmark, hreq, Dict.getD, Dict.find?, totalCom]
  have vzB : q.getD "zB" 0 = (p.getD "mD" 0 * p.getD "zD" 0 + p.getD "mP" 0 * p.getD "zP" 0) /
      (p.getD "mD" 0 + p.getD "mP" 0) := by
    rw [vals, hbl]; simp [convertPrincipalToBenchmark, hreq, Dict.getD, Dict.find?, totalCom]
  have vs : ∀ k ∈ ["mF", "mH", "mR", "w", "rF", "rR", "xH", "zH"], q.getD k 0 = p.getD k 0 := by
    intro k hk
    rw [vals, hbl]
    simp only [List.mem_cons, List.not_mem_nil, or_false] at hk
    rcases hk with rfl | rfl | rfl | rfl | rfl | rfl | rfl | rfl <;>
      simp [convertPrincipalToBenchmark, hreq, Dict.getD, Dict.find?]
  constructor
  · intro hm
    rw [massCenterOf_eq .moore2019 p l2 hp ["P", "D"] (by decide) (by decide)]
    rw [massCenterOf, C64_body_center .meijaard q l1 hqv "B" (by decide)]
    congr 1
    funext i
    fin_cases i <;> simp [bodyCenter, bodyList, totalCom, vxB, vzB] <;> ring
  · intro hm hM
    rw [massCenterOf_eq .moore2019 p l2 hp ["D", "F", "H", "P", "R"] (by decide) (by decide),
      massCenterOf_eq .meijaard q l1 hqv ["B", "F", "H", "R"] (by decide) (by decide)]
    congr 1
    have e1 := vs "mF" (by simp)
    have e2 := vs "mH" (by simp)
    have e3 := vs "mR" (by simp)
    have e4 := vs "w" (by simp)
    have e5 := vs "rF" (by simp)
    have e6 := vs "rR" (by simp)
    have e7 := vs "xH" (by simp)
    have e8 := vs "zH" (by simp)
    have hden : p.getD "mD" 0 + p.getD "mP" 0 + (p.getD "mF" 0 + (p.getD "mH" 0 + p.getD "mR" 0)) =
        p.getD "mD" 0 + (p.getD "mF" 0 + (p.getD "mH" 0 + (p.getD "mP" 0 + p.getD "mR" 0))) := by ring
    funext i
    fin_cases i <;>
      simp [bodyCenter, bodyList, totalCom, vmB, vxB, vzB, e1, e2, e3, e4, e5, e6, e7, e8, hden] <;>
      congr 1 <;> field_simp <;> ring

/-- non-vacuity of C64: a valid set, and two of its bodies -/
example : ValidNums .moore2019 (nums (exampleSet .moore2019)) ∧
    massCenterOf .moore2019 (nums (exampleSet .moore2019)) ["R", "P"] = .ok ![1 / 2, 0, 0] := by
  have hv : ValidNums .moore2019 (nums (exampleSet .moore2019)) :=
    validNums_of_valid ⟨.moore2019, exampleSet .moore2019, none⟩ (exampleSet_complete _)
  refine ⟨hv, ?_⟩
  have e : ∀ k ∈ SetKind.moore2019.parStrings.keys, (nums (exampleSet .moore2019)).getD k 0 = 1 := by
    intro k hk
    have h1 := find?_eq_getD (hv k hk)
    have := Dict.find?_some_mem h1
    simp only [nums, exampleSet, List.map_map, List.mem_map, Function.comp_def, Prod.mk.injEq] at this
    obtain ⟨_, _, _, h⟩ := this
    exact h.symm
  rw [massCenterOf_eq .moore2019 _ (by simp [Locates]) hv ["R", "P"] (by decide) (by decide)]
  congr 1
  have e1 := e "rR" (by decide)
  have e2 := e "mR" (by decide)
  have e3 := e "mP" (by decide)
  have e4 := e "xP" (by decide)
  have e5 := e "zP" (by decide)
  funext i
  fin_cases i <;> simp [bodyCenter, bodyList, totalCom, e1, e2, e3, e4, e5]
  all_goals norm_num

/-! ## C88 drawn inertia -/

/-- numpy's `eig` of a symmetric matrix: unit eigenvectors that span the plane. -/
structure Spec.IsEig (A : Matrix (Fin 2) (Fin 2) ℝ) (evals : Fin 2 → ℝ)
    (evecs : Matrix (Fin 2) (Fin 2) ℝ) : Prop where
  eig : ∀ j, A *ᵥ (fun i => evecs i j) = evals j • fun i => evecs i j
  unit : ∀ j, evecs 0 j ^ 2 + evecs 1 j ^ 2 = 1
  indep : evecs 0 0 * evecs 1 1 - evecs 0 1 * evecs 1 0 ≠ 0

theorem arg_unit (x y : ℝ) (h : x ^ 2 + y ^ 2 = 1) :
    cos (Complex.arg ⟨x, y⟩) = x ∧ sin (Complex.arg ⟨x, y⟩) = y := by
  have hn : ‖(⟨x, y⟩ : ℂ)‖ = 1 := by
    rw [Complex.norm_def, Complex.normSq_mk, ← sq, ← sq, h, Real.sqrt_one]
  have h0 : (⟨x, y⟩ : ℂ) ≠ 0 := by
    intro e; rw [e] at hn; simp at hn
  constructor
  · rw [Complex.cos_arg h0, hn]; simp
  · rw [Complex.sin_arg, hn]; simp

theorem eig_sym {a b c x0 x1 y0 y1 l m : ℝ}
    (h1 : a * x0 + b * x1 = l * x0) (h2 : b * x0 + c * x1 = l * x1)
    (h3 : a * y0 + b * y1 = m * y0) (h4 : b * y0 + c * y1 = m * y1)
    (hd : x0 * y1 - y0 * x1 ≠ 0) :
    a * -x1 + b * x0 = m * -x1 ∧ b * -x1 + c * x0 = m * x0 := by
  -- the trace is l + m
  have htr : (a + c - l - m) * (x0 * y1 - y0 * x1) = 0 := by
    linear_combination y1 * h1 - y0 * h2 - x1 * h3 + x0 * h4
  have ht : c = l + m - a := by
    rcases mul_eq_zero.1 htr with h | h
    · linarith
    · exact absurd h hd
  subst ht
  constructor
  · linear_combination h2
  · linear_combination -h1


theorem planarRadii_tensor (xx xz yy zz m : ℝ) (evals : Fin 2 → ℝ) (evecs : Matrix (Fin 2) (Fin 2) ℝ)
    (hm : 0 < m) (hy : 0 ≤ yy) (hpos : ∀ j, 0 ≤ evals j)
    (h : IsEig (xzPlane !![xx, 0, xz; 0, yy, 0; xz, 0, zz]) evals evecs)
    (kmax kmin kyy alpha : ℝ) (hr : planarRadii evals evecs m yy = (kmax, kmin, kyy, alpha)) :
    PrincipalTensor !![xx, 0, xz; 0, yy, 0; xz, 0, zz] m kmax kyy kmin alpha ∧ kmin ≤ kmax := by
  have sq : ∀ x, 0 ≤ x → m * √(x / m) ^ 2 = x := by
    intro x hx
    rw [Real.sq_sqrt (by positivity)]
    field_simp
  have he : ∀ j, xx * evecs 0 j + xz * evecs 1 j = evals j * evecs 0 j ∧
      xz * evecs 0 j + zz * evecs 1 j = evals j * evecs 1 j := by
    intro j
    have h0 := congrFun (h.eig j) 0
    have h1 := congrFun (h.eig j) 1
    simp [xzPlane, Matrix.mulVec, dotProduct, Fin.sum_univ_two] at h0 h1
    exact ⟨h0, h1⟩
  have main : ∀ hi lo : Fin 2, evals lo ≤ evals hi →
      evecs 0 hi * evecs 1 lo - evecs 0 lo * evecs 1 hi ≠ 0 →
      kmax = √(evals hi / m) → kmin = √(evals lo / m) → kyy = √(yy / m) →
      alpha = Complex.arg ⟨evecs 0 hi, -evecs 1 hi⟩ →
      PrincipalTensor !![xx, 0, xz; 0, yy, 0; xz, 0, zz] m kmax kyy kmin alpha ∧ kmin ≤ kmax := by
    intro hi lo hle hd e1 e2 e3 e4
    obtain ⟨hc, hs⟩ := arg_unit (evecs 0 hi) (-evecs 1 hi) (by linear_combination h.unit hi)
    rw [← e4] at hc hs
    have hs' : sin alpha = -evecs 1 hi := hs
    obtain ⟨a1, a2⟩ := he hi
    obtain ⟨b1, b2⟩ := he lo
    obtain ⟨c1, c2⟩ := eig_sym a1 a2 b1 b2 hd
    refine ⟨⟨?_, ?_, ?_⟩, ?_⟩
    · rw [e1, sq _ (hpos hi), hc, hs']
      funext i
      fin_cases i
      · simp; linear_combination a1
      · simp
      · simp; linear_combination a2
    · rw [e3, sq _ hy]
      funext i
      fin_cases i <;> simp
    · rw [e2, sq _ (hpos lo), hc, hs']
      funext i
      fin_cases i
      · simp; linear_combination c1
      · simp
      · simp; linear_combination c2
    · rw [e1, e2]
      apply Real.sqrt_le_sqrt
      gcongr
  simp only [planarRadii, Prod.mk.injEq] at hr
  obtain ⟨e1, e2, e3, e4⟩ := hr
  by_cases hlt : evals 1 < evals 0
  · simp only [hlt, if_true] at e1 e2 e4
    exact main 0 1 hlt.le (by intro h'; exact h.indep h') e1.symm e2.symm e3.symm e4.symm
  · simp only [hlt, if_false] at e1 e2 e4
    exact main 1 0 (not_lt.1 hlt) (by intro h'; exact h.indep (by linear_combination -h')) e1.symm e2.symm
      e3.symm e4.symm

/-- **C88.** The radii of gyration and the angle computed for a body of a Meijaard set describe its
inertia tensor: the tensor has moments `m kmax²`, `m kmin²` about the in-plane axes at `alpha`
and perpendicular to it, and `m kyy²` about y. -/
theorem C88_radii_describe_tensor (kind : SetKind) (p : Dict ℝ) (body : String) (I : Mat3)
    (evals : Fin 2 → ℝ) (evecs : Matrix (Fin 2) (Fin 2) ℝ)
    (hI : formInertiaTensor kind p body = .ok I) (h : IsEig (xzPlane I) evals evecs)
    (hm : 0 < p.getD ("m" ++ body) 0) (hy : 0 ≤ I 1 1) (hpos : ∀ j, 0 ≤ evals j)
    (kmax kmin kyy alpha : ℝ)
    (hr : planarRadii evals evecs (p.getD ("m" ++ body) 0) (I 1 1) = (kmax, kmin, kyy, alpha)) :
    PrincipalTensor I (p.getD ("m" ++ body) 0) kmax kyy kmin alpha ∧ kmin ≤ kmax := by
  have hshape : ∃ xx xz yy zz, I = !![xx, 0, xz; 0, yy, 0; xz, 0, zz] := by
    unfold formInertiaTensor at hI
    split at hI
    · cases hq : extended kind p with
      | error e => rw [hq] at hI; cases hI
      | ok q =>
        rw [hq] at hI
        simp only at hI
        cases h1 : q.get ("I" ++ body ++ "xx") with
        | error e => rw [h1] at hI; cases hI
        | ok xx =>
          cases h2 : q.get ("I" ++ body ++ "xz") with
          | error e => rw [h1, h2] at hI; cases hI
          | ok xz =>
            cases h3 : q.get ("I" ++ body ++ "yy") with
            | error e => rw [h1, h2, h3] at hI; cases hI
            | ok yy =>
              cases h4 : q.get ("I" ++ body ++ "zz") with
              | error e => rw [h1, h2, h3, h4] at hI; cases hI
              | ok zz =>
                rw [h1, h2, h3, h4] at hI
                cases hI
                exact ⟨xx, xz, yy, zz, rfl⟩
    · cases hI
  obtain ⟨xx, xz, yy, zz, rfl⟩ := hshape
  exact planarRadii_tensor xx xz yy zz _ evals evecs hm (by simpa using hy) hpos h kmax kmin kyy alpha
    (by simpa using hr)

/-- The principal moments of a uniform solid ellipsoid of mass `m` with semi-axes `a`, `b`, `c`. -/
noncomputable def Spec.ellipsoidMoments (m a b c : ℝ) : ℝ × ℝ × ℝ :=
  (m / 5 * (b ^ 2 + c ^ 2), m / 5 * (a ^ 2 + c ^ 2), m / 5 * (a ^ 2 + b ^ 2))

/-- The outline in the xz plane of an ellipsoid centred at `(x, z)` with semi-axes `a` along the
principal axis at `alpha` and `b` perpendicular to it, at the parameter `t`. -/
noncomputable def Spec.outline (x z a b alpha t : ℝ) : ℝ × ℝ :=
  (x + a * cos t * cos alpha + b * sin t * sin alpha, z - a * cos t * sin alpha + b * sin t * cos alpha)

/-- The curve matplotlib draws for an `Ellipse`: `width` and `height` are the full lengths of the
axes, `angle` is in degrees, from the first to the second drawing axis. -/
noncomputable def Spec.drawnPoint (e : EllipsePatch) (t : ℝ) : ℝ × ℝ :=
  let th := e.angle * π / 180
  (e.cx + e.width / 2 * cos t * cos th - e.height / 2 * sin t * sin th,
   e.cz + e.width / 2 * cos t * sin th + e.height / 2 * sin t * cos th)

/-- **C88.** `width` and `height` are the semi-axes of the uniform ellipsoid with the body's
moments of inertia. -/
theorem C88_semi_axes (x z m kaa kbb kyy alpha : ℝ) (h1 : kaa ^ 2 ≤ kyy ^ 2 + kbb ^ 2)
    (h2 : kbb ^ 2 ≤ kaa ^ 2 + kyy ^ 2) (h3 : kyy ^ 2 ≤ kaa ^ 2 + kbb ^ 2) :
    let e := ellipsePatch x z kaa kbb kyy alpha
    ellipsoidMoments m e.width √(5 / 2 * (kaa ^ 2 + kbb ^ 2 - kyy ^ 2)) e.height =
      (m * kaa ^ 2, m * kyy ^ 2, m * kbb ^ 2) := by
  intro e
  have s1 : e.width ^ 2 = 5 / 2 * (-kaa ^ 2 + kyy ^ 2 + kbb ^ 2) := Real.sq_sqrt (by linarith)
  have s2 : e.height ^ 2 = 5 / 2 * (kaa ^ 2 + kyy ^ 2 - kbb ^ 2) := Real.sq_sqrt (by linarith)
  have s3 : √(5 / 2 * (kaa ^ 2 + kbb ^ 2 - kyy ^ 2)) ^ 2 = 5 / 2 * (kaa ^ 2 + kbb ^ 2 - kyy ^ 2) :=
    Real.sq_sqrt (by linarith)
  simp only [ellipsoidMoments, s1, s2, s3, Prod.mk.injEq]
  refine ⟨?_, ?_, ?_⟩ <;> ring

/-- **C88 fails.** The drawn ellipse has the right centre and axes but half the size: every drawn
point is halfway between the mass centre and the outline of that ellipsoid. -/
theorem C88_drawn_at_half_size (x z kaa kbb kyy alpha t : ℝ) :
    let e := ellipsePatch x z kaa kbb kyy alpha
    drawnPoint e t = ((x + (outline x z e.width e.height alpha t).1) / 2,
      (z + (outline x z e.width e.height alpha t).2) / 2) := by
  intro e
  have hth : e.angle * π / 180 = -alpha := by
    simp only [e, ellipsePatch]
    field_simp
  have hx : e.cx = x := rfl
  have hz : e.cz = z := rfl
  simp only [drawnPoint, hth, outline, hx, hz, Real.cos_neg, Real.sin_neg, Prod.mk.injEq]
  constructor <;> ring

/-- **C88.** The two lines drawn for a body: half of its mass at each of the four end points has the
same moment of inertia as the body about every axis in the plane through the mass centre. -/
theorem C88_gyration_lines (x z m kaa kbb kyy alpha th : ℝ) (I : Mat3)
    (hI : PrincipalTensor I m kaa kyy kbb alpha) :
    (((gyrationLines x z kaa kbb alpha).flatMap fun l => [l.1, l.2]).map fun q =>
      m / 2 * ((q.1 - x) * sin th - (q.2 - z) * cos th) ^ 2).sum =
      ![cos th, 0, sin th] ⬝ᵥ (I *ᵥ ![cos th, 0, sin th]) := by
  rw [C32_principal_tensor] at hI
  subst hI
  have hs : sin (-alpha - π / 2) = -cos alpha := by
    rw [Real.sin_sub_pi_div_two, Real.cos_neg]
  have hc : cos (-alpha - π / 2) = -sin alpha := by
    rw [Real.cos_sub_pi_div_two, Real.sin_neg]
  simp [gyrationLines, hs, hc, principalInertia, rotateInertiaTensor, rotY, Matrix.mul_apply,
    Fin.sum_univ_three, Matrix.mulVec, dotProduct, Matrix.diagonal]
  ring

/-- non-vacuity of C88: numpy's answer for a diagonal tensor, and radii of gyration that obey the
triangle inequalities -/
example : IsEig (xzPlane !![1, 0, 0; 0, 3, 0; 0, 0, 2]) ![1, 2] 1 ∧
    (1 : ℝ) ^ 2 ≤ 2 ^ 2 + 2 ^ 2 := by
  refine ⟨⟨fun j => ?_, fun j => ?_, by simp⟩, by norm_num⟩
  · funext i
    fin_cases i <;> fin_cases j <;> simp [xzPlane, Matrix.mulVec, dotProduct, Fin.sum_univ_two]
  · fin_cases j
    · norm_num [Matrix.one_apply]
    · norm_num [Matrix.one_apply]

/-! ## C89 the person -/

/-- **C89.** The drawn person is a closed rhombus centred on the person's mass centre: its
diagonals are `wP` along the principal axis at `alphaP` and `lP` perpendicular to it. -/
theorem C89_person_rhombus (xP zP wP lP alphaP : ℝ) :
    ∃ A B C D : ℝ × ℝ, personDiamond xP zP wP lP alphaP = [A, B, C, D, A] ∧
      (A + C = (2 * xP, 2 * zP)) ∧ (B + D = (2 * xP, 2 * zP)) ∧
      A - C = (wP * cos alphaP, -(wP * sin alphaP)) ∧ D - B = (lP * sin alphaP, lP * cos alphaP) ∧
      (∀ P ∈ [(A, B), (B, C), (C, D), (D, A)],
        (P.1.1 - P.2.1) ^ 2 + (P.1.2 - P.2.2) ^ 2 = (wP / 2) ^ 2 + (lP / 2) ^ 2) := by
  have hs : sin (-alphaP + π / 2) = cos alphaP := by
    rw [Real.sin_add_pi_div_two, Real.cos_neg]
  have hc : cos (-alphaP + π / 2) = sin alphaP := by
    rw [Real.cos_add_pi_div_two, Real.sin_neg, neg_neg]
  have hsc := sin_sq_add_cos_sq alphaP
  refine ⟨_, _, _, _, rfl, ?_, ?_, ?_, ?_, ?_⟩
  · simp only [Prod.mk_add_mk, Prod.mk.injEq]; constructor <;> ring
  · simp only [Prod.mk_add_mk, Prod.mk.injEq]; constructor <;> ring
  · simp only [Prod.mk_sub_mk, Prod.mk.injEq, Real.cos_neg, Real.sin_neg]; constructor <;> ring
  · simp only [Prod.mk_sub_mk, Prod.mk.injEq, hs, hc]; constructor <;> ring
  · intro P hP
    simp only [List.mem_cons, List.not_mem_nil, or_false] at hP
    rcases hP with rfl | rfl | rfl | rfl <;> simp only [hs, hc, Real.cos_neg, Real.sin_neg] <;>
      linear_combination ((wP / 2) ^ 2 + (lP / 2) ^ 2) * hsc

/-! ## C90 the drawn bicycle -/

/-- **C90.** The wheels are drawn as circles that touch the ground line `z = 0` at the two contact
points and nowhere cross it, with the stored radii. -/
theorem C90_wheels_touch_ground (w rR rF : ℝ) (h1 : 0 ≤ rR) (h2 : 0 ≤ rF) :
    ∃ R F : (ℝ × ℝ) × ℝ, wheelCircles w rR rF = [R, F] ∧ R.2 = rR ∧ F.2 = rF ∧
      (∀ x z, (x - R.1.1) ^ 2 + (z - R.1.2) ^ 2 = R.2 ^ 2 → z ≤ 0 ∧ (z = 0 ↔ (x, z) = (0, 0))) ∧
      (∀ x z, (x - F.1.1) ^ 2 + (z - F.1.2) ^ 2 = F.2 ^ 2 → z ≤ 0 ∧ (z = 0 ↔ (x, z) = (w, 0))) := by
  have key : ∀ a r x z : ℝ, 0 ≤ r → (x - a) ^ 2 + (z - -r) ^ 2 = r ^ 2 →
      z ≤ 0 ∧ (z = 0 ↔ (x, z) = (a, 0)) := by
    intro a r x z hr h
    have h3 : (z + r) ^ 2 ≤ r ^ 2 := by nlinarith [sq_nonneg (x - a)]
    have h4 : z + r ≤ r := by
      have := Real.sqrt_le_sqrt h3
      rw [Real.sqrt_sq hr] at this
      exact le_trans (Real.le_sqrt_of_sq_le le_rfl) this
    refine ⟨by linarith, ?_⟩
    simp only [Prod.mk.injEq]
    constructor
    · rintro rfl
      have : (x - a) ^ 2 = 0 := by linarith
      exact ⟨by linarith [pow_eq_zero_iff (two_ne_zero) |>.1 this], rfl⟩
    · exact fun h => h.2
  exact ⟨_, _, rfl, rfl, rfl, fun x z h => key 0 rR x z h1 h, fun x z h => key w rF x z h2 h⟩

/-- **C90, partial.** The dashed line lies on the steer axis: it starts at the point of the axis
closest to the front wheel centre and ends where the axis meets the ground, `c` ahead of the
front contact point.  Missing: the docstring promises a line from the wheel centre, which is
not on the axis unless the fork offset is zero. -/
theorem C90_steer_axis_line_partial (w c lam rR rF : ℝ) (hl : cos lam ≠ 0) (pts : List (ℝ × ℝ))
    (hp : pts = fundamentalGeometryPlotData w c lam rR rF)
    (hz : (pts.getD 1 (0, 0)).2 ≠ (pts.getD 2 (0, 0)).2) :
    let l := steerAxisLine pts
    l.2 = (w + c, 0) ∧ aheadOfAxis (w + c) lam l.1.1 l.1.2 = 0 ∧
      (w - l.1.1) * sin lam + (-rF - l.1.2) * cos lam = 0 := by
  intro l
  have hsc := sin_sq_add_cos_sq lam
  have ht : tan lam * cos lam = sin lam := Real.tan_mul_cos hl
  set d1 := cos lam * (c + w - rR * tan lam) with hd1
  set d3 := -cos lam * (c - rF * tan lam) with hd3
  have e1 : d1 = (c + w) * cos lam - rR * sin lam := by rw [hd1]; linear_combination -rR * ht
  have e3 : d3 = -(c * cos lam) + rF * sin lam := by rw [hd3]; linear_combination rF * ht
  have hpts : pts = [(0, -rR), (d1 * cos lam, -rR - d1 * sin lam), (w - d3 * cos lam, -rF + d3 * sin lam),
      (w, -rF)] := by rw [hp]; rfl
  rw [hpts] at hz
  simp only [List.getD_cons_succ, List.getD_cons_zero] at hz
  have hl1 : l = ((w - d3 * cos lam, -rF + d3 * sin lam),
      (w - d3 * cos lam - (-rF + d3 * sin lam) * (w - d3 * cos lam - d1 * cos lam) /
        (-(-rR - d1 * sin lam) + (-rF + d3 * sin lam)), 0)) := by
    simp only [l, steerAxisLine, hpts]; rfl
  rw [hl1]
  have hden : -(-rR - d1 * sin lam) + (-rF + d3 * sin lam) ≠ 0 := by
    intro h; apply hz; linarith
  refine ⟨?_, ?_, ?_⟩
  · simp only [Prod.mk.injEq, and_true]
    -- both points lie on the axis (x - (w + c)) cos = z sin
    have a1 : (d1 * cos lam - (w + c)) * cos lam = (-rR - d1 * sin lam) * sin lam := by
      rw [e1]; linear_combination ((c + w) * cos lam - rR * sin lam) * hsc
    have a2 : (w - d3 * cos lam - (w + c)) * cos lam = (-rF + d3 * sin lam) * sin lam := by
      rw [e3]; linear_combination (c * cos lam - rF * sin lam) * hsc
    have key : (w - d3 * cos lam - (w + c)) * (-(-rR - d1 * sin lam) + (-rF + d3 * sin lam)) =
        (-rF + d3 * sin lam) * (w - d3 * cos lam - d1 * cos lam) := by
      have : cos lam * ((w - d3 * cos lam - (w + c)) * (-(-rR - d1 * sin lam) + (-rF + d3 * sin lam)) -
        (-rF + d3 * sin lam) * (w - d3 * cos lam - d1 * cos lam)) = 0 := by
        linear_combination (-(-rR - d1 * sin lam)) * a2 + (-rF + d3 * sin lam) * a1
      rcases mul_eq_zero.1 this with h | h
      · exact absurd h hl
      · linarith
    rw [← key, mul_div_assoc, div_self hden]
    ring
  · simp only [aheadOfAxis]
    rw [e3]; linear_combination (c * cos lam - rF * sin lam) * hsc
  · simp only
    ring

/-- non-vacuity of C90: a bicycle with horizontal offset points at different heights -/
example : (fundamentalGeometryPlotData 1 0 0 (1 / 4) (1 / 3) |>.getD 1 (0, 0)).2 ≠
    (fundamentalGeometryPlotData 1 0 0 (1 / 4) (1 / 3) |>.getD 2 (0, 0)).2 := by
  norm_num [fundamentalGeometryPlotData]

end BP
