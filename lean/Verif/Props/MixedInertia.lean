import Verif.Model.MixedInertia

/-!
# C158: `part_inertia_tensor` for floats and numbers with uncertainties
-/

set_option linter.unusedSimpArgs false

namespace BP

namespace Spec
end Spec
open Spec

/-- The three wheels: front, rear, and the flywheel. -/
def Spec.wheelNames : List String := ["F", "R", "D"]

/-- The names of the entries that the tensor of a part needs. -/
def Spec.tensorNames (part : String) : List String :=
  if part ∈ wheelNames then ["I" ++ part ++ "xx", "I" ++ part ++ "yy"]
  else ["I" ++ part ++ "xx", "I" ++ part ++ "xz", "I" ++ part ++ "yy", "I" ++ part ++ "zz"]

/-- `T` is the tensor of the part: the entries stored in the dictionary in their places (for a wheel xx also for zz), 0 elsewhere. -/
def Spec.IsTensorOf {ι : Type} (par : Dict (Quantity ι)) (part : String) (T : Fin 3 → Fin 3 → Quantity ι) : Prop :=
  par.find? ("I" ++ part ++ "xx") = some (T 0 0) ∧ par.find? ("I" ++ part ++ "yy") = some (T 1 1) ∧
  T 0 1 = .float 0 ∧ T 1 0 = .float 0 ∧ T 1 2 = .float 0 ∧ T 2 1 = .float 0 ∧
  (part ∈ wheelNames → par.find? ("I" ++ part ++ "xx") = some (T 2 2) ∧ T 0 2 = .float 0 ∧ T 2 0 = .float 0) ∧
  (part ∉ wheelNames → par.find? ("I" ++ part ++ "zz") = some (T 2 2) ∧ par.find? ("I" ++ part ++ "xz") = some (T 0 2) ∧
    par.find? ("I" ++ part ++ "xz") = some (T 2 0))

/-- The value is a float. -/
def Spec.IsFloat {ι : Type} : Option (Quantity ι) → Prop
  | some (.float _) => True
  | _ => False

/-- The value is a number with an uncertainty. -/
def Spec.IsUncertain {ι : Type} : Option (Quantity ι) → Prop
  | some (.uncertain _) => True
  | _ => False

theorem store_object {ι : Type} (I : Fin 3 → Fin 3 → Quantity ι) (i j : Fin 3) (q : Quantity ι) :
    storeCell true I i j q = .ok fun a b => if a = i ∧ b = j then q else I a b := by
  cases q <;> rfl

theorem store_float {ι : Type} (o : Bool) (I : Fin 3 → Fin 3 → Quantity ι) (i j : Fin 3) (x : ℝ) :
    storeCell o I i j (.float x) = .ok fun a b => if a = i ∧ b = j then .float x else I a b := by
  cases o <;> rfl

theorem store_uncertain {ι : Type} (I : Fin 3 → Fin 3 → Quantity ι) (i j : Fin 3) (u : UNum ι) :
    storeCell false I i j (.uncertain u) = .error .typeError := rfl

theorem part_cases {part : String} (h : part ∈ ["B", "H", "F", "R", "G", "S", "D"]) :
    (part ∈ wheelNames ∧ part ∈ ["F", "R", "D", "FR", "RD", "FRD", ""]) ∨
    (part ∉ wheelNames ∧ part ∉ ["F", "R", "D", "FR", "RD", "FRD", ""]) := by
  simp only [List.mem_cons, List.not_mem_nil, or_false] at h
  rcases h with rfl | rfl | rfl | rfl | rfl | rfl | rfl <;> simp [wheelNames]

theorem allowed_object {ι : Type} {par : Dict (Quantity ι)} {names : List String}
    (h : IsUncertain (par.find? "IBxx") ∨ ∀ k ∈ names, IsFloat (par.find? k)) (b : Quantity ι) (hb : par.find? "IBxx" = some b) :
    (∃ u, b = .uncertain u) ∨ ∀ k ∈ names, ∃ x, par.find? k = some (.float x) := by
  refine h.imp (fun h => ?_) fun h k hk => ?_
  · rw [hb] at h
    cases b with
    | float x => exact h.elim
    | uncertain u => exact ⟨u, rfl⟩
  · have := h k hk
    rcases hf : par.find? k with _ | ⟨x | u⟩
    · rw [hf] at this; exact this.elim
    · exact ⟨x, rfl⟩
    · rw [hf] at this; exact this.elim

/-- **C158.** With the entries of the part and `IBxx` in the dictionary: `part_inertia_tensor` returns the tensor of the part if
`IBxx` has an uncertainty or the entries of the part are floats. -/
theorem C158_tensor_partial {ι : Type} (par : Dict (Quantity ι)) (part : String) (hp : part ∈ ["B", "H", "F", "R", "G", "S", "D"])
    (hB : par.has "IBxx" = true) (hk : ∀ k ∈ tensorNames part, par.has k = true)
    (h : IsUncertain (par.find? "IBxx") ∨ ∀ k ∈ tensorNames part, IsFloat (par.find? k)) :
    ∃ T, mixedTensor par part = .ok T ∧ IsTensorOf par part T := by
  obtain ⟨b, hb⟩ := Option.isSome_iff_exists.1 hB
  have hh := allowed_object h b hb
  rcases part_cases hp with ⟨w, w'⟩ | ⟨w, w'⟩
  · rw [tensorNames, if_pos w] at hk hh
    obtain ⟨xx, hxx⟩ := Option.isSome_iff_exists.1 (hk _ (List.mem_cons_self ..))
    obtain ⟨yy, hyy⟩ := Option.isSome_iff_exists.1 (hk ("I" ++ part ++ "yy") (by simp))
    simp only [mixedTensor, Dict.get, hb, tensorCells, if_pos w', fillTensor, hxx, hyy]
    rcases hh with ⟨u, rfl⟩ | hh
    · simp only [store_object]
      refine ⟨_, rfl, ?_⟩
      simp [IsTensorOf, w, hxx, hyy]
    · obtain ⟨x, hx⟩ := hh _ (List.mem_cons_self ..)
      obtain ⟨y, hy⟩ := hh ("I" ++ part ++ "yy") (by simp)
      obtain rfl := Option.some.inj (hxx.symm.trans hx)
      obtain rfl := Option.some.inj (hyy.symm.trans hy)
      simp only [store_float]
      refine ⟨_, rfl, ?_⟩
      simp [IsTensorOf, w, hxx, hyy]
  · rw [tensorNames, if_neg w] at hk hh
    obtain ⟨xx, hxx⟩ := Option.isSome_iff_exists.1 (hk _ (List.mem_cons_self ..))
    obtain ⟨xz, hxz⟩ := Option.isSome_iff_exists.1 (hk ("I" ++ part ++ "xz") (by simp))
    obtain ⟨yy, hyy⟩ := Option.isSome_iff_exists.1 (hk ("I" ++ part ++ "yy") (by simp))
    obtain ⟨zz, hzz⟩ := Option.isSome_iff_exists.1 (hk ("I" ++ part ++ "zz") (by simp))
    simp only [mixedTensor, Dict.get, hb, tensorCells, if_neg w', fillTensor, hxx, hxz, hyy, hzz]
    rcases hh with ⟨u, rfl⟩ | hh
    · simp only [store_object]
      refine ⟨_, rfl, ?_⟩
      simp [IsTensorOf, w, hxx, hxz, hyy, hzz]
    · obtain ⟨x, hx⟩ := hh _ (List.mem_cons_self ..)
      obtain ⟨z, hz⟩ := hh ("I" ++ part ++ "xz") (by simp)
      obtain ⟨y, hy⟩ := hh ("I" ++ part ++ "yy") (by simp)
      obtain ⟨t, ht⟩ := hh ("I" ++ part ++ "zz") (by simp)
      obtain rfl := Option.some.inj (hxx.symm.trans hx)
      obtain rfl := Option.some.inj (hxz.symm.trans hz)
      obtain rfl := Option.some.inj (hyy.symm.trans hy)
      obtain rfl := Option.some.inj (hzz.symm.trans ht)
      simp only [store_float]
      refine ⟨_, rfl, ?_⟩
      simp [IsTensorOf, w, hxx, hxz, hyy, hzz]

theorem fill_uncertain {ι : Type} (par : Dict (Quantity ι)) (part : String) :
    ∀ cells : List (Fin 3 × Fin 3 × String), (∀ c ∈ cells, par.has ("I" ++ part ++ c.2.2) = true) →
      (∃ c ∈ cells, IsUncertain (par.find? ("I" ++ part ++ c.2.2))) → ∀ I, fillTensor par part false I cells = .error .typeError := by
  intro cells
  induction cells with
  | nil => intro _ ⟨c, hc, _⟩; simp at hc
  | cons c cells ih =>
    intro hh ⟨d, hd, hu⟩ I
    obtain ⟨i, j, col⟩ := c
    obtain ⟨q, hq⟩ := Option.isSome_iff_exists.1 (hh _ (List.mem_cons_self ..))
    simp only at hq
    simp only [fillTensor, Dict.get, hq]
    cases q with
    | uncertain u => rfl
    | float x =>
      rw [store_float]
      refine ih (fun c hc => hh c (List.mem_cons_of_mem _ hc)) ⟨d, ?_, hu⟩ _
      rcases List.mem_cons.1 hd with rfl | hd
      · simp only [hq] at hu; exact hu.elim
      · exact hd

/-- **C158.** Otherwise it raises `TypeError`: one float in the place of `IBxx`, and no tensor with an uncertainty can be had, not
even of a wheel, although all entries are there. -/
theorem C158_type_error {ι : Type} (par : Dict (Quantity ι)) (part : String) (hp : part ∈ ["B", "H", "F", "R", "G", "S", "D"])
    (hB : IsFloat (par.find? "IBxx")) (hk : ∀ k ∈ tensorNames part, par.has k = true)
    (h : ∃ k ∈ tensorNames part, IsUncertain (par.find? k)) : mixedTensor par part = .error .typeError := by
  rcases hb : par.find? "IBxx" with _ | ⟨x | u⟩
  · rw [hb] at hB; exact hB.elim
  · simp only [mixedTensor, Dict.get, hb]
    refine fill_uncertain par part _ (fun c hc => ?_) ?_ _
    · refine hk _ ?_
      rcases part_cases hp with ⟨w, w'⟩ | ⟨w, w'⟩
      · rw [tensorCells, if_pos w'] at hc
        rw [tensorNames, if_pos w]
        simp only [List.mem_cons, List.not_mem_nil, or_false] at hc
        rcases hc with rfl | rfl | rfl <;> simp
      · rw [tensorCells, if_neg w'] at hc
        rw [tensorNames, if_neg w]
        simp only [List.mem_cons, List.not_mem_nil, or_false] at hc
        rcases hc with rfl | rfl | rfl | rfl | rfl <;> simp
    · obtain ⟨k, hk, hu⟩ := h
      rcases part_cases hp with ⟨w, w'⟩ | ⟨w, w'⟩
      · rw [tensorCells, if_pos w']
        rw [tensorNames, if_pos w] at hk
        simp only [List.mem_cons, List.not_mem_nil, or_false] at hk
        rcases hk with rfl | rfl
        · exact ⟨(0, 0, "xx"), by simp, hu⟩
        · exact ⟨(1, 1, "yy"), by simp, hu⟩
      · rw [tensorCells, if_neg w']
        rw [tensorNames, if_neg w] at hk
        simp only [List.mem_cons, List.not_mem_nil, or_false] at hk
        rcases hk with rfl | rfl | rfl | rfl
        · exact ⟨(0, 0, "xx"), by simp, hu⟩
        · exact ⟨(0, 2, "xz"), by simp, hu⟩
        · exact ⟨(1, 1, "yy"), by simp, hu⟩
        · exact ⟨(2, 2, "zz"), by simp, hu⟩
  · rw [hb] at hB; exact hB.elim

/-- **C158.** A missing entry raises an exception; `IBxx` is needed for every part. -/
theorem C158_missing {ι : Type} (par : Dict (Quantity ι)) (part : String) (hp : part ∈ ["B", "H", "F", "R", "G", "S", "D"])
    (h : ∃ k ∈ "IBxx" :: tensorNames part, par.has k = false) : ∃ e, mixedTensor par part = .error e := by
  have fill : ∀ (o : Bool) (cells : List (Fin 3 × Fin 3 × String)), (∃ c ∈ cells, par.has ("I" ++ part ++ c.2.2) = false) →
      ∀ I, ∃ e, fillTensor par part o I cells = .error e := by
    intro o cells
    induction cells with
    | nil => intro ⟨c, hc, _⟩; simp at hc
    | cons c cells ih =>
      intro ⟨d, hd, hm⟩ I
      obtain ⟨i, j, col⟩ := c
      rcases hf : par.find? ("I" ++ part ++ col) with _ | q
      · simp only [fillTensor, Dict.get, hf]; exact ⟨_, rfl⟩
      · simp only [fillTensor, Dict.get, hf]
        rcases hs : storeCell o I i j q with e | I'
        · exact ⟨e, rfl⟩
        · refine ih ⟨d, ?_, hm⟩ I'
          rcases List.mem_cons.1 hd with rfl | hd
          · simp [Dict.has, hf] at hm
          · exact hd
  rcases hb : par.find? "IBxx" with _ | b
  · simp only [mixedTensor, Dict.get, hb]; exact ⟨_, rfl⟩
  · simp only [mixedTensor, Dict.get, hb]
    refine fill _ _ ?_ _
    obtain ⟨k, hk, hm⟩ := h
    rcases List.mem_cons.1 hk with rfl | hk
    · simp [Dict.has, hb] at hm
    rcases part_cases hp with ⟨w, w'⟩ | ⟨w, w'⟩
    · rw [tensorCells, if_pos w']
      rw [tensorNames, if_pos w] at hk
      simp only [List.mem_cons, List.not_mem_nil, or_false] at hk
      rcases hk with rfl | rfl
      · exact ⟨(0, 0, "xx"), by simp, hm⟩
      · exact ⟨(1, 1, "yy"), by simp, hm⟩
    · rw [tensorCells, if_neg w']
      rw [tensorNames, if_neg w] at hk
      simp only [List.mem_cons, List.not_mem_nil, or_false] at hk
      rcases hk with rfl | rfl | rfl | rfl
      · exact ⟨(0, 0, "xx"), by simp, hm⟩
      · exact ⟨(0, 2, "xz"), by simp, hm⟩
      · exact ⟨(1, 1, "yy"), by simp, hm⟩
      · exact ⟨(2, 2, "zz"), by simp, hm⟩

theorem find_floats {ι : Type} (par : Dict ℝ) (k : String) :
    Dict.find? (par.map fun e => (e.1, (Quantity.float e.2 : Quantity ι))) k = (par.find? k).map .float := by
  induction par with
  | nil => rfl
  | cons e par ih =>
    simp only [List.map_cons, Dict.find?]
    split_ifs
    · rfl
    · exact ih

/-- **C158.** For dictionaries of floats this is the function of Model/Inertia. -/
theorem C158_floats {ι : Type} (par : Dict ℝ) (part : String) (I : Mat3) (h : partInertiaTensor par part = .ok I) :
    mixedTensor (par.map fun e => (e.1, (Quantity.float e.2 : Quantity ι))) part = .ok fun i j => .float (I i j) := by
  unfold partInertiaTensor at h
  by_cases w : part ∈ ["F", "R", "D", "FR", "RD", "FRD", ""]
  · simp only [if_pos w, Dict.require] at h
    rcases hb : par.find? "IBxx" with _ | b <;> simp only [hb] at h
    · cases h
    rcases hxx : par.find? ("I" ++ part ++ "xx") with _ | xx <;> simp only [hxx] at h
    · cases h
    rcases hyy : par.find? ("I" ++ part ++ "yy") with _ | yy <;> simp only [hyy] at h
    · cases h
    simp only [Except.ok.injEq] at h
    subst h
    simp only [mixedTensor, Dict.get, find_floats, hb, hxx, hyy, Option.map_some, tensorCells, if_pos w, fillTensor, store_float]
    congr 1
    funext i j
    fin_cases i <;> fin_cases j <;> simp [Dict.getD, hxx, hyy]
  · simp only [if_neg w, Dict.require] at h
    rcases hb : par.find? "IBxx" with _ | b <;> simp only [hb] at h
    · cases h
    rcases hxx : par.find? ("I" ++ part ++ "xx") with _ | xx <;> simp only [hxx] at h
    · cases h
    rcases hxz : par.find? ("I" ++ part ++ "xz") with _ | xz <;> simp only [hxz] at h
    · cases h
    rcases hyy : par.find? ("I" ++ part ++ "yy") with _ | yy <;> simp only [hyy] at h
    · cases h
    rcases hzz : par.find? ("I" ++ part ++ "zz") with _ | zz <;> simp only [hzz] at h
    · cases h
    simp only [Except.ok.injEq] at h
    subst h
    simp only [mixedTensor, Dict.get, find_floats, hb, hxx, hxz, hyy, hzz, Option.map_some, tensorCells, if_neg w, fillTensor,
      store_float]
    congr 1
    funext i j
    fin_cases i <;> fin_cases j <;> simp [Dict.getD, hxx, hxz, hyy, hzz]

/-- non-vacuity of C158: the front wheel of a bicycle with a frame that is known exactly -/
theorem example_mixed (x : ℝ) (u w : UNum Unit) :
    mixedTensor [("IBxx", .float x), ("IFxx", .uncertain u), ("IFyy", .uncertain w)] "F" = .error .typeError :=
  C158_type_error _ "F" (by simp) (by simp [Dict.find?, IsFloat])
    (by simp [tensorNames, wheelNames, Dict.has, Dict.find?]) ⟨"IFxx", by simp [tensorNames, wheelNames], by simp [Dict.find?, IsUncertain]⟩

/-- non-vacuity of C158: the same wheel with an uncertain frame -/
theorem example_mixed_ok (a u w : UNum Unit) :
    ∃ T, mixedTensor [("IBxx", .uncertain a), ("IFxx", .uncertain u), ("IFyy", .uncertain w)] "F" = .ok T ∧
      T 2 2 = .uncertain u := by
  obtain ⟨T, h, hT⟩ := C158_tensor_partial [("IBxx", .uncertain a), ("IFxx", .uncertain u), ("IFyy", .uncertain w)] "F" (by simp)
    (by simp [Dict.has, Dict.find?]) (by simp [tensorNames, wheelNames, Dict.has, Dict.find?]) (.inl (by simp [Dict.find?, IsUncertain]))
  refine ⟨T, h, ?_⟩
  have := (hT.2.2.2.2.2.2.1 (by simp [wheelNames])).1
  simp [Dict.find?] at this
  exact this.symm

end BP
