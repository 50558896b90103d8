import Verif.Props.IO

/-!
# C137: a parameter file whose writing was cut off

`write_parameter_text_file` truncates the file and writes line after line.  When the program is stopped meanwhile, the
file holds a beginning of the text (C136).  These theorems say what loading such a file gives.
-/

namespace BP

/-- The lines of some keys. -/
theorem cut_split {V : Type} (io : NumIO V) (d : Dict V) : ∀ (ks : List String) (p : Text),
    p <+: ks.flatMap (parLine io d) →
    ∃ done rest q, done ++ rest = ks ∧ p = done.flatMap (parLine io d) ++ q ∧
      (q = [] ∨ ∃ k more, rest = k :: more ∧ q <+: k.toList ++ " = ".toList ++
        (match Dict.find? d k with | some v => io.str v | none => []))
  | [], p, h => by
    simp only [List.flatMap_nil, List.prefix_nil] at h
    exact ⟨[], [], [], rfl, by simp [h], Or.inl rfl⟩
  | k :: ks, p, h => by
    rw [List.flatMap_cons] at h
    by_cases hl : parLine io d k <+: p
    · obtain ⟨p', rfl⟩ := hl
      rw [List.prefix_append_right_inj] at h
      obtain ⟨done, rest, q, h1, h2, h3⟩ := cut_split io d ks p' h
      exact ⟨k :: done, rest, q, by rw [← h1]; rfl, by rw [h2, List.flatMap_cons, List.append_assoc], h3⟩
    · refine ⟨[], k :: ks, p, rfl, rfl, Or.inr ⟨k, ks, rfl, ?_⟩⟩
      have h1 : p <+: parLine io d k := by
        rcases List.prefix_or_prefix_of_prefix h (List.prefix_append (parLine io d k) _) with h1 | h1
        · exact h1
        · exact (hl h1).elim
      unfold parLine at h1 hl
      rcases List.prefix_concat_iff.1 h1 with h2 | h2
      · exact (hl (h2 ▸ List.prefix_refl _)).elim
      · exact h2

/-- The part of a dictionary with some keys. -/
def Spec.part {V : Type} (d : Dict V) (ks : List String) : Dict V :=
  ks.filterMap fun k => (Dict.find? d k).map fun v => (k, v)

theorem part_find? {V : Type} (d : Dict V) (k : String) : ∀ ks : List String,
    (Spec.part d ks).find? k = if k ∈ ks then d.find? k else none
  | [] => rfl
  | a :: ks => by
    have ih := part_find? d k ks
    unfold Spec.part at ih ⊢
    rw [List.filterMap_cons]
    cases ha : Dict.find? d a with
    | none =>
      simp only [Option.map_none]
      rw [ih]
      by_cases e : k = a
      · subst e
        simp [ha]
      · simp [e]
    | some v =>
      simp only [Option.map_some]
      by_cases e : a = k
      · subst e
        simp [Dict.find?, ha]
      · have e' : ¬ k = a := fun h => e h.symm
        simp only [Dict.find?, if_neg e, List.mem_cons, e', false_or]
        exact ih

theorem part_keys {V : Type} (d : Dict V) : ∀ ks : List String, (∀ k ∈ ks, ∃ v, d.find? k = some v) →
    (Spec.part d ks).keys = ks
  | [], _ => rfl
  | a :: ks, h => by
    obtain ⟨v, hv⟩ := h a (by simp)
    have ih := part_keys d ks fun k hk => h k (List.mem_cons_of_mem _ hk)
    unfold Spec.part at ih ⊢
    rw [List.filterMap_cons, hv]
    simp only [Option.map_some]
    show a :: Dict.keys _ = _
    rw [ih]

theorem keys_found {V : Type} (d : Dict V) (done rest : List String) (hs : done ++ rest = sortKeys d.keys) :
    ∀ k ∈ done, ∃ v, d.find? k = some v := by
  intro k hk
  have h1 : k ∈ sortKeys d.keys := by rw [← hs]; simp [hk]
  have h2 : k ∈ d.keys := (List.perm_insertionSort _ _).mem_iff.1 h1
  rw [← Dict.has_iff_mem_keys, Dict.has_iff_exists] at h2
  exact h2

/-- Loading the first lines. -/
theorem load_done {V : Type} (io : NumIO V) (d : Dict V) (back : V → V)
    (hn : d.keys.Nodup) (hk : ∀ k ∈ d.keys, Spec.KeyOK k)
    (hv : ∀ k v, d.find? k = some v → Spec.ReadsBackAs io v (back v))
    (done rest : List String) (hs : done ++ rest = sortKeys d.keys) :
    ∃ d', loadText io (done.flatMap (parLine io d)) = .ok d' ∧
      ∀ k, d'.find? k = if k ∈ done then (d.find? k).map back else none := by
  have hfound := keys_found d done rest hs
  have hkeys := part_keys d done hfound
  have hsub : done.Sublist (sortKeys d.keys) := by rw [← hs]; exact List.sublist_append_left _ _
  have hmem : ∀ k ∈ done, k ∈ d.keys := fun k h => (List.perm_insertionSort _ _).mem_iff.1 (hsub.subset h)
  have hnodup : done.Nodup := hsub.nodup ((List.perm_insertionSort _ _).nodup_iff.2 hn)
  have hsorted : done.Pairwise (· ≤ ·) := (List.pairwise_insertionSort _ _).sublist hsub
  have hsort : sortKeys done = done := List.Pairwise.insertionSort_eq hsorted
  obtain ⟨d', h1, -, h3⟩ := C44_write_load io (Spec.part d done) back (by rw [hkeys]; exact hnodup)
    (by rw [hkeys]; exact fun k h => hk k (hmem k h)) (by
      intro k v h
      rw [part_find?] at h
      split at h
      · exact hv k v h
      · simp at h)
  refine ⟨d', ?_, fun k => ?_⟩
  · rw [← h1]
    unfold writeText
    rw [hkeys, hsort]
    refine congrArg _ ?_
    rw [List.flatMap_def, List.flatMap_def]
    refine congrArg _ (List.map_congr_left fun k h => ?_)
    unfold parLine
    rw [part_find?, if_pos h]
  · rw [h3, part_find?]
    split <;> rfl

theorem parLine_whole {V : Type} (io : NumIO V) (d : Dict V) (back : V → V) (k : String) (v : V) (hf : d.find? k = some v)
    (hk : Spec.KeyOK k) (hv : Spec.ReadsBackAs io v (back v)) : FullLine (parLine io d k) := by
  refine ⟨k.toList ++ " = ".toList ++ io.str v, by simp [parLine, hf], ?_⟩
  simp only [List.mem_append, not_or]
  exact ⟨⟨fun h => (hk.2 _ h).2.2 rfl, by decide⟩, fun h => (hv.1 _ h).2.2 rfl⟩

/-- Loading the first lines and a beginning of the next. -/
theorem load_cut {V : Type} (io : NumIO V) (d : Dict V) (back : V → V)
    (hk : ∀ k ∈ d.keys, Spec.KeyOK k)
    (hv : ∀ k v, d.find? k = some v → Spec.ReadsBackAs io v (back v))
    (done rest : List String) (hs : done ++ rest = sortKeys d.keys) (q : Text) :
    loadText io (done.flatMap (parLine io d) ++ q) =
      (loadText io (done.flatMap (parLine io d))).bind fun d' => (textLines q).foldlM (loadLine io) d' := by
  have hfull : ∀ l ∈ done.map (parLine io d), FullLine l := by
    intro l hl
    obtain ⟨k, hkm, rfl⟩ := List.mem_map.1 hl
    obtain ⟨v, hf⟩ := keys_found d done rest hs k hkm
    exact parLine_whole io d back k v hf (hk k ((Dict.has_iff_mem_keys _ _).1 ((Dict.has_iff_exists _ _).2 ⟨v, hf⟩))) (hv k v hf)
  have e : ∀ r, textLines (done.flatMap (parLine io d) ++ r) = done.map (parLine io d) ++ textLines r := by
    intro r
    rw [List.flatMap_def]
    exact textLines_full _ hfull r
  have e0 := e []
  rw [List.append_nil] at e0
  unfold loadText
  rw [e, e0, List.foldlM_append]
  simp only [textLines, List.append_nil]
  rfl

theorem textLines_part (q : Text) (h : '\n' ∉ q) (h0 : q ≠ []) : textLines q = [q] := by
  induction q with
  | nil => exact (h0 rfl).elim
  | cons x q ih =>
    rw [textLines, if_neg fun e => h (by simp [e])]
    cases q with
    | nil => rfl
    | cons y q => rw [ih (fun hc => h (List.mem_cons_of_mem _ hc)) (by simp)]

/-- **C137.** A parameter file that was cut off between two lines loads without error.  It gives the values of the
alphabetically first keys as they would be read from the whole file, and no others. -/
theorem C137_cut_between_lines {V : Type} (io : NumIO V) (d : Dict V) (back : V → V)
    (hn : d.keys.Nodup) (hk : ∀ k ∈ d.keys, Spec.KeyOK k)
    (hv : ∀ k v, d.find? k = some v → Spec.ReadsBackAs io v (back v))
    (p : Text) (hp : p <+: writeText io d) (hend : p = [] ∨ p.getLast? = some '\n') :
    ∃ (done rest : List String) (d' : Dict V), (done ++ rest).Perm d.keys ∧ (done ++ rest).Pairwise (· ≤ ·) ∧
      loadText io p = .ok d' ∧ ∀ k, d'.find? k = if k ∈ done then (d.find? k).map back else none := by
  obtain ⟨done, rest, q, hs, rfl, hq⟩ := cut_split io d _ p hp
  have hq0 : q = [] := by
    rcases hq with hq | ⟨k, more, rfl, hq⟩
    · exact hq
    · by_contra h0
      obtain ⟨v, hf⟩ := keys_found d (done ++ [k]) more (by rw [← hs]; simp) k (by simp)
      have hkk := hk k ((Dict.has_iff_mem_keys _ _).1 ((Dict.has_iff_exists _ _).2 ⟨v, hf⟩))
      have hvv := hv k v hf
      rcases hend with he | he
      · exact h0 (by simpa using (List.append_eq_nil_iff.1 he).2)
      · rw [List.getLast?_append_of_ne_nil _ h0] at he
        have hm : '\n' ∈ q := List.mem_of_getLast? he
        have hm2 := hq.subset hm
        rw [hf] at hm2
        simp only [List.mem_append] at hm2
        rcases hm2 with (h | h) | h
        · exact (hkk.2 _ h).2.2 rfl
        · revert h; decide
        · exact (hvv.1 _ h).2.2 rfl
  subst hq0
  obtain ⟨d', h1, h2⟩ := load_done io d back hn hk hv done rest hs
  refine ⟨done, rest, d', ?_, ?_, by rw [List.append_nil]; exact h1, h2⟩
  · rw [hs]; exact List.perm_insertionSort _ _
  · rw [hs]; exact List.pairwise_insertionSort _ _

theorem strip_newline_end (q : Text) : strip (q ++ ['\n']) = strip q :=
  strip_append_ws ['\n'] q (by simp [isWs])

/-- A line that was cut off is read like a whole one. -/
theorem loadLine_unended {V : Type} (io : NumIO V) (acc : Dict V) (q : Text) (h0 : q ≠ []) :
    loadLine io acc q = loadLine io acc (q ++ ['\n']) := by
  unfold loadLine
  rw [strip_newline_end]
  cases q with
  | nil => exact (h0 rfl).elim
  | cons x q => rfl

/-- The line of a key, cut off: an error, or a value for this key. -/
theorem loadLine_cut {V : Type} (io : NumIO V) (acc d' : Dict V) (k : String) (hk : Spec.KeyOK k) (s q : Text)
    (hs : ∀ c ∈ s, c ≠ '=' ∧ c ≠ '#' ∧ c ≠ '\n') (hq : q <+: k.toList ++ " = ".toList ++ s) (h0 : q ≠ [])
    (h : loadLine io acc q = .ok d') : ∃ v, d' = Dict.set acc k v := by
  have hmark : " = ".toList = [' ', '=', ' '] := rfl
  by_cases hm : '=' ∈ q
  · have hlong : k.toList ++ [' ', '='] <+: q := by
      rcases List.prefix_or_prefix_of_prefix (l₁ := k.toList ++ [' ', '=']) (l₂ := q)
        (l₃ := k.toList ++ " = ".toList ++ s) (by rw [hmark]; exact ⟨' ' :: s, by simp⟩) hq with h1 | h1
      · exact h1
      · have h2 : k.toList ++ [' ', '='] = (k.toList ++ [' ']) ++ ['='] := by simp
        rw [h2] at h1
        rcases List.prefix_concat_iff.1 h1 with h3 | h3
        · rw [h3, h2]
        · have h4 := h3.subset hm
          simp only [List.mem_append, List.mem_singleton] at h4
          rcases h4 with h4 | h4
          · exact ((hk.2 _ h4).1 rfl).elim
          · exact absurd h4 (by decide)
    obtain ⟨r, rfl⟩ := hlong
    have hr : ∀ c ∈ r, c ≠ '=' ∧ c ≠ '#' ∧ c ≠ '\n' := by
      have h1 : r <+: ' ' :: s := by
        rw [hmark] at hq
        have h2 : k.toList ++ [' ', '=', ' '] ++ s = (k.toList ++ [' ', '=']) ++ (' ' :: s) := by simp
        rw [h2, List.prefix_append_right_inj] at hq
        exact hq
      intro c hc
      rcases List.mem_cons.1 (h1.subset hc) with rfl | h2
      · decide
      · exact hs c h2
    have hrend : (k.toList ++ [' ', '=']) ++ r ++ ['\n'] =
        (Spec.ParLine.assign (k.toList ++ [' ']) r none).render ++ ['\n'] := by
      simp [Spec.ParLine.render]
    have hwf : (Spec.ParLine.assign (k.toList ++ [' ']) r none).WF := by
      refine ⟨?_, by simp⟩
      intro c hc
      simp only [List.mem_append, List.mem_cons, List.not_mem_nil, or_false] at hc
      rcases hc with (hc | rfl) | hc
      · exact hk.2 c hc
      · decide
      · exact hr c hc
    rw [loadLine_unended io acc _ h0, hrend, loadLine_render io acc _ hwf] at h
    simp only [Spec.ParLine.meaning] at h
    cases hv : Spec.value io r with
    | error e => rw [hv] at h; cases h
    | ok x =>
      rw [hv] at h
      dsimp only at h
      rw [strip_append_ws [' '] _ (by simp [isWs]), hk.1, String.ofList_toList] at h
      exact ⟨x, by injection h with h; exact h.symm⟩
  · exfalso
    have hhash : q.head? ≠ some '#' := by
      intro e
      have h1 : '#' ∈ q := List.mem_of_head? e
      have h2 := hq.subset h1
      simp only [List.mem_append] at h2
      rcases h2 with (h2 | h2) | h2
      · exact (hk.2 _ h2).2.1 rfl
      · revert h2; decide
      · exact (hs _ h2).2.1 rfl
    have hnl : '\n' ∉ q := by
      intro h1
      have h2 := hq.subset h1
      simp only [List.mem_append] at h2
      rcases h2 with (h2 | h2) | h2
      · exact (hk.2 _ h2).2.2 rfl
      · revert h2; decide
      · exact (hs _ h2).2.2 rfl
    have hno : '=' ∉ (strip q).takeWhile fun c => decide (c ≠ '#') := fun h1 =>
      hm (mem_lstrip (mem_rstrip (by rw [← strip_eq]; exact (List.takeWhile_prefix _).subset h1)))
    unfold loadLine at h
    rw [if_neg hhash] at h
    simp only [splitOn_head] at h
    rw [splitOn_not_mem _ _ hno] at h
    cases h

/-- **C137.** Wherever a parameter file was cut off: if it loads at all, there is at most one key, the next one in the
alphabet, whose value can be wrong.  The keys before it have the values that would be read from the whole file, and there
are no other keys. -/
theorem C137_cut_anywhere {V : Type} (io : NumIO V) (d : Dict V) (back : V → V)
    (hn : d.keys.Nodup) (hk : ∀ k ∈ d.keys, Spec.KeyOK k)
    (hv : ∀ k v, d.find? k = some v → Spec.ReadsBackAs io v (back v))
    (p : Text) (hp : p <+: writeText io d) (d' : Dict V) (hload : loadText io p = .ok d') :
    ∃ done rest : List String, (done ++ rest).Perm d.keys ∧ (done ++ rest).Pairwise (· ≤ ·) ∧
      (∀ k ∈ done, d'.find? k = (d.find? k).map back) ∧
      ∀ k, k ∉ done → d'.find? k ≠ none → rest.head? = some k := by
  obtain ⟨done, rest, q, hs, rfl, hq⟩ := cut_split io d _ p hp
  obtain ⟨d1, h1, h2⟩ := load_done io d back hn hk hv done rest hs
  have hnodup : (done ++ rest).Nodup := by rw [hs]; exact (List.perm_insertionSort _ _).nodup_iff.2 hn
  refine ⟨done, rest, by rw [hs]; exact List.perm_insertionSort _ _, by rw [hs]; exact List.pairwise_insertionSort _ _, ?_⟩
  by_cases h0 : q = []
  · subst h0
    rw [List.append_nil, h1] at hload
    injection hload with hload
    subst hload
    refine ⟨fun k hkm => by rw [h2, if_pos hkm], fun k hkm hne => ?_⟩
    rw [h2, if_neg hkm] at hne
    exact (hne rfl).elim
  · obtain ⟨k, more, rfl, hq'⟩ := hq.resolve_left h0
    clear hq
    have hq := hq'
    clear hq'
    obtain ⟨v, hf⟩ := keys_found d (done ++ [k]) more (by rw [← hs]; simp) k (by simp)
    have hkk := hk k ((Dict.has_iff_mem_keys _ _).1 ((Dict.has_iff_exists _ _).2 ⟨v, hf⟩))
    have hvv := hv k v hf
    rw [hf] at hq
    have hnl : '\n' ∉ q := by
      intro hm
      have hm2 := hq.subset hm
      simp only [List.mem_append] at hm2
      rcases hm2 with (h | h) | h
      · exact (hkk.2 _ h).2.2 rfl
      · revert h; decide
      · exact (hvv.1 _ h).2.2 rfl
    rw [load_cut io d back hk hv done (k :: more) hs, h1, textLines_part q hnl h0] at hload
    have hload' : loadLine io d1 q = .ok d' := by
      have : (loadLine io d1 q >>= fun x => pure x) = Except.ok d' := hload
      simpa using this
    obtain ⟨x, rfl⟩ := loadLine_cut io d1 d' k hkk (io.str v) q hvv.1 hq h0 hload'
    have hnot : k ∉ done := fun h => (List.nodup_append.1 hnodup).2.2 k h k (by simp) rfl
    refine ⟨fun k' hk' => ?_, fun k' hk' hne => ?_⟩
    · rw [Dict.find?_set, if_neg (fun e : k = k' => hnot (by rw [e]; exact hk')), h2, if_pos hk']
    · rw [Dict.find?_set] at hne
      split at hne
      · rename_i e; rw [e]; rfl
      · rw [h2, if_neg hk'] at hne
        exact (hne rfl).elim

/-- **C137.** The wrong value is not noticed: of the line `w = 111` (numbers are written in unary here) the first six
characters load without error, and `w` is then 2 instead of 3. -/
theorem C137_cut_number_loads :
    writeText toyIO [("w", 3)] = ['w', ' ', '=', ' ', '1', '1', '1', '\n'] ∧
    loadText toyIO (writeText toyIO [("w", 3)]) = .ok [("w", 3)] ∧
    ['w', ' ', '=', ' ', '1', '1'] <+: writeText toyIO [("w", 3)] ∧
    loadText toyIO ['w', ' ', '=', ' ', '1', '1'] = .ok [("w", 2)] := by
  have h : writeText toyIO [("w", 3)] = ['w', ' ', '=', ' ', '1', '1', '1', '\n'] := by
    simp [writeText, parLine, toyIO, sortKeys, Dict.keys, Dict.find?, List.replicate]
  refine ⟨h, ?_, ?_, rfl⟩
  · rw [h]; rfl
  · rw [h]; exact ⟨['1', '\n'], rfl⟩

/-- The hypotheses of the theorems about files that were cut off can be met. -/
example : (Dict.keys [("w", 3), ("c", 2)]).Nodup ∧ (∀ k ∈ Dict.keys [("w", 3), ("c", 2)], Spec.KeyOK k) ∧
    (∀ k v, Dict.find? [("w", 3), ("c", 2)] k = some v → Spec.ReadsBackAs toyIO v v) ∧
    ['c', ' ', '=', ' ', '1', '1', '\n'] <+: writeText toyIO [("w", 3), ("c", 2)] ∧
    ['c', ' ', '=', ' ', '1', '1', '\n', 'w', ' ', '=', ' ', '1'] <+: writeText toyIO [("w", 3), ("c", 2)] ∧
    loadText toyIO ['c', ' ', '=', ' ', '1', '1', '\n', 'w', ' ', '=', ' ', '1'] = .ok [("c", 2), ("w", 1)] := by
  have h : writeText toyIO [("w", 3), ("c", 2)] =
      ['c', ' ', '=', ' ', '1', '1', '\n', 'w', ' ', '=', ' ', '1', '1', '1', '\n'] := by
    decide +kernel
  refine ⟨by decide, ?_, ?_, ?_, ?_, rfl⟩
  · intro k hk
    have hks : k = "w" ∨ k = "c" := by simpa [Dict.keys] using hk
    rcases hks with rfl | rfl
    · exact ⟨by decide +kernel, by decide +kernel⟩
    · exact ⟨by decide +kernel, by decide +kernel⟩
  · intro k v hkv
    have hvs : v = 3 ∨ v = 2 := by
      simp only [Dict.find?] at hkv
      split at hkv
      · injection hkv with e; exact Or.inl e.symm
      · split at hkv
        · injection hkv with e; exact Or.inr e.symm
        · simp at hkv
    rcases hvs with rfl | rfl
    · exact ⟨by decide +kernel, rfl⟩
    · exact ⟨by decide +kernel, rfl⟩
  · rw [h]; exact ⟨['w', ' ', '=', ' ', '1', '1', '1', '\n'], rfl⟩
  · rw [h]; exact ⟨['1', '1', '\n'], rfl⟩

end BP
