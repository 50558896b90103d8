/-!
# Python vocabulary

Exceptions as values and insertion-ordered dictionaries.  This file models the
language runtime, not a file of /repo: a Python `dict` keeps its keys in
insertion order, `d[k] = v` replaces in place or appends, `d[k]` raises
`KeyError(k)` when the key is absent.
-/

namespace BP

/-- The Python exceptions that the modelled code can raise. -/
inductive PyErr where
  | keyError (key : String)
  | valueError
  | indexError
  | typeError
  | unboundLocal
  | ioError
  | attributeError
  | zeroDivision
  | linAlgError
  | yamlError
  deriving DecidableEq, Repr

/-- An insertion-ordered Python dictionary with string keys. -/
abbrev Dict (β : Type _) := List (String × β)

namespace Dict

variable {β : Type _}

/-- `d.get(k)`: the value stored under `k`, if any. -/
def find? (d : Dict β) (k : String) : Option β :=
  match d with
  | [] => none
  | (k', v) :: d => if k' = k then some v else find? d k

/-- `d[k] = v`: replace in place, else append. -/
def set (d : Dict β) (k : String) (v : β) : Dict β :=
  match d with
  | [] => [(k, v)]
  | (k', v') :: d => if k' = k then (k', v) :: d else (k', v') :: set d k v

/-- `k in d`. -/
def has (d : Dict β) (k : String) : Bool := (d.find? k).isSome

/-- `d.keys()`. -/
def keys (d : Dict β) : List String := d.map Prod.fst

/-- `d[k]`, raising `KeyError`. -/
def get (d : Dict β) (k : String) : Except PyErr β :=
  match d.find? k with
  | some v => .ok v
  | none => .error (.keyError k)

/-- `d.get(k, dflt)`. -/
def getD (d : Dict β) (k : String) (dflt : β) : β := (d.find? k).getD dflt

/-- `del d[k]` / `d.pop(k)` for a key that is present (no change otherwise). -/
def erase (d : Dict β) (k : String) : Dict β := d.filter (fun e => e.1 ≠ k)

/-- `d.update(e)`: set the entries of `e` one after the other. -/
def update (d e : Dict β) : Dict β := e.foldl (fun acc kv => acc.set kv.1 kv.2) d

/-- Reads a list of keys in order; the first missing one raises `KeyError`. -/
def require (d : Dict β) : List String → Except PyErr Unit
  | [] => .ok ()
  | k :: ks => match d.find? k with
    | some _ => d.require ks
    | none => .error (.keyError k)

@[simp] theorem find?_nil (k : String) : find? ([] : Dict β) k = none := rfl

theorem find?_cons (k' : String) (v : β) (d : Dict β) (k : String) :
    find? ((k', v) :: d) k = if k' = k then some v else find? d k := rfl

@[simp] theorem find?_set_self (d : Dict β) (k : String) (v : β) :
    (d.set k v).find? k = some v := by
  induction d with
  | nil => simp [set, find?]
  | cons e d ih =>
    obtain ⟨k', v'⟩ := e
    by_cases h : k' = k <;> simp [set, find?, h, ih]

theorem find?_set_of_ne (d : Dict β) {k k' : String} (v : β) (h : k ≠ k') :
    (d.set k v).find? k' = d.find? k' := by
  induction d with
  | nil => simp [set, find?, h]
  | cons e d ih =>
    obtain ⟨k'', v'⟩ := e
    by_cases h1 : k'' = k
    · subst h1; simp [set, find?, h]
    · have hs : set ((k'', v') :: d) k v = (k'', v') :: set d k v := by simp [set, h1]
      rw [hs, find?_cons, find?_cons, ih]

theorem find?_set (d : Dict β) (k k' : String) (v : β) :
    (d.set k v).find? k' = if k = k' then some v else d.find? k' := by
  by_cases h : k = k'
  · subst h; simp
  · simp [h, find?_set_of_ne]

theorem has_set (d : Dict β) (k k' : String) (v : β) :
    (d.set k v).has k' = (decide (k = k') || d.has k') := by
  unfold has
  rw [find?_set]
  by_cases h : k = k' <;> simp [h]

theorem find?_eq_none_iff (d : Dict β) (k : String) : d.find? k = none ↔ k ∉ d.keys := by
  induction d with
  | nil => simp [keys]
  | cons e d ih =>
    obtain ⟨k', v'⟩ := e
    by_cases h : k' = k
    · subst h; simp [find?, keys]
    · have h' : ¬ k = k' := fun e => h e.symm
      simp only [find?, h, if_false, ih, keys, List.map_cons, List.mem_cons, h', false_or]

theorem has_iff_mem_keys (d : Dict β) (k : String) : d.has k = true ↔ k ∈ d.keys := by
  have := find?_eq_none_iff d k
  unfold has
  cases h : d.find? k with
  | none => simp [h] at this; simp [this]
  | some v => simp [h] at this; simp [this]

theorem has_iff_exists (d : Dict β) (k : String) : d.has k = true ↔ ∃ v, d.find? k = some v := by
  unfold has; cases d.find? k <;> simp

theorem keys_set (d : Dict β) (k : String) (v : β) :
    (d.set k v).keys = if d.has k then d.keys else d.keys ++ [k] := by
  induction d with
  | nil => simp [set, keys, has]
  | cons e d ih =>
    obtain ⟨k', v'⟩ := e
    by_cases h : k' = k
    · simp [set, h, keys, has, find?]
    · have hc : (set ((k', v') :: d) k v) = (k', v') :: set d k v := by simp [set, h]
      have hh : has ((k', v') :: d) k = has d k := by simp [has, find?, h]
      have e1 : keys ((k', v') :: set d k v) = k' :: keys (set d k v) := rfl
      have e2 : keys ((k', v') :: d) = k' :: keys d := rfl
      rw [hc, hh, e1, e2, ih]
      split <;> simp

theorem nodup_set (d : Dict β) (k : String) (v : β) (h : d.keys.Nodup) :
    (d.set k v).keys.Nodup := by
  rw [keys_set]
  split
  · exact h
  · rename_i hk
    have : k ∉ d.keys := fun hm => hk ((has_iff_mem_keys d k).2 hm)
    refine List.nodup_append.2 ⟨h, by simp, ?_⟩
    intro a ha b hb hab
    simp at hb; subst hb; subst hab; exact this ha

/-- Setting a key to the value it already has changes nothing. -/
theorem set_of_find? (d : Dict β) (k : String) (v : β) (h : d.find? k = some v) :
    d.set k v = d := by
  induction d with
  | nil => simp at h
  | cons e d ih =>
    obtain ⟨k', v'⟩ := e
    by_cases hk : k' = k
    · simp [find?, hk] at h; simp [set, hk, h]
    · simp [find?, hk] at h; simp [set, hk, ih h]

theorem require_ok_iff (d : Dict β) (ks : List String) :
    d.require ks = .ok () ↔ ∀ k ∈ ks, d.has k = true := by
  induction ks with
  | nil => simp [require]
  | cons k ks ih =>
    cases h : d.find? k with
    | none => simp [require, h, has]
    | some v => simp [require, h, has] at *; exact ih

/-- A failing sequence of reads names the first missing key. -/
theorem require_error (d : Dict β) (ks : List String) (e : PyErr) (h : d.require ks = .error e) :
    ∃ k ∈ ks, e = .keyError k ∧ d.has k = false := by
  induction ks with
  | nil => simp [require] at h
  | cons k ks ih =>
    cases hk : d.find? k with
    | none => simp [require, hk] at h; exact ⟨k, by simp, h.symm, by simp [has, hk]⟩
    | some v =>
      simp [require, hk] at h
      obtain ⟨k', hm, h1, h2⟩ := ih h
      exact ⟨k', by simp [hm], h1, h2⟩

theorem getD_eq_of_find? (d : Dict β) (k : String) (dflt v : β) (h : d.find? k = some v) :
    d.getD k dflt = v := by simp [getD, h]

theorem getD_set (d : Dict β) (k k' : String) (v dflt : β) :
    (d.set k v).getD k' dflt = if k = k' then v else d.getD k' dflt := by
  unfold getD; rw [find?_set]; split <;> rfl

theorem find?_update (d e : Dict β) (k : String) (hn : e.keys.Nodup) :
    (d.update e).find? k = (match e.find? k with | some v => some v | none => d.find? k) := by
  induction e generalizing d with
  | nil => simp [update]
  | cons kv e ih =>
    obtain ⟨k', v'⟩ := kv
    have hn' : k' ∉ keys e ∧ (keys e).Nodup := by simpa [keys] using hn
    have := ih (d.set k' v') hn'.2
    simp only [update, List.foldl_cons] at this ⊢
    rw [this, find?_cons]
    by_cases h : k' = k
    · subst h
      have : find? e k' = none := (find?_eq_none_iff e k').2 hn'.1
      simp [this]
    · simp only [h, if_false]
      cases find? e k with
      | none => simp [find?_set_of_ne _ _ h]
      | some v => rfl

theorem find?_some_mem {d : Dict β} {k : String} {v : β} (h : d.find? k = some v) :
    (k, v) ∈ d := by
  induction d with
  | nil => simp at h
  | cons e d ih =>
    obtain ⟨k', v'⟩ := e
    by_cases hk : k' = k
    · simp [find?, hk] at h; simp [hk, h]
    · simp [find?, hk] at h; exact List.mem_cons_of_mem _ (ih h)

theorem find?_of_mem {d : Dict β} {k : String} {v : β} (hn : d.keys.Nodup) (h : (k, v) ∈ d) :
    d.find? k = some v := by
  induction d with
  | nil => simp at h
  | cons e d ih =>
    obtain ⟨k', v'⟩ := e
    have hn' : k' ∉ keys d ∧ (keys d).Nodup := by simpa [keys] using hn
    rcases List.mem_cons.1 h with h | h
    · injection h with h1 h2; subst h1; subst h2; simp [find?]
    · have : k' ≠ k := fun e => hn'.1 (e ▸ List.mem_map_of_mem (f := Prod.fst) h)
      simp [find?, this, ih hn'.2 h]

end Dict
end BP
