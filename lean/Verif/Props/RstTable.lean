import Verif.Props.Tables

/-!
# create_rst_table and to_latex: C59, C85
-/

set_option linter.unusedSimpArgs false

namespace BP

/-- Specification: text without spaces at either end. -/
def Spec.trim (s : Text) : Text :=
  ((s.dropWhile (· = ' ')).reverse.dropWhile (· = ' ')).reverse

/-! ## Helpers -/

theorem zipIdx_eq_range {A : Type} (l : List A) (dflt : A) :
    l.zipIdx = (List.range l.length).map fun i => (l.getD i dflt, i) := by
  apply List.ext_getElem
  · simp
  · intro i h1 h2
    have hi : i < l.length := by simpa using h1
    simp [List.getElem_zipIdx, hi]

theorem length_zipIdx_flatMap {A B : Type} (l : List A) (dflt : A) (f : A × ℕ → List B) :
    (l.zipIdx.flatMap f).length = ((List.range l.length).map fun i => (f (l.getD i dflt, i)).length).sum := by
  rw [zipIdx_eq_range l dflt, List.length_flatMap, List.map_map]
  rfl

theorem flatMap_eq_range {A B : Type} (l : List A) (dflt : A) (f : A → List B) :
    l.flatMap f = (List.range l.length).flatMap fun i => f (l.getD i dflt) := by
  conv_lhs => rw [show l = (List.range l.length).map fun i => l.getD i dflt by
    apply List.ext_getElem
    · simp
    · intro i h1 h2
      simp [h1]]
  rw [List.flatMap_map]

theorem sum_range_pairs (g : ℕ → ℕ) (n : ℕ) :
    ((List.range (1 + 2 * n)).map g).sum =
      g 0 + ((List.range n).map fun i => g (2 * i + 1) + g (2 * i + 2)).sum := by
  induction n with
  | zero => simp
  | succ n ih =>
    rw [show 1 + 2 * (n + 1) = (1 + 2 * n) + 1 + 1 by ring, List.range_succ, List.range_succ, List.map_append,
      List.map_append, List.sum_append, List.sum_append, ih, List.range_succ (n := n), List.map_append,
      List.sum_append]
    simp only [List.map_cons, List.map_nil, List.sum_cons, List.sum_nil]
    rw [show 1 + 2 * n = 2 * n + 1 by ring, show 2 * n + 1 + 1 = 2 * n + 2 by ring]
    ring

theorem sum_map_congr {l : List ℕ} {f g : ℕ → ℕ} (h : ∀ i ∈ l, f i = g i) : (l.map f).sum = (l.map g).sum := by
  rw [List.map_congr_left h]

/-! ### Widths -/

theorem widen_length (w : List ℕ) (row : List Text) : (widen w row).length = w.length := by
  induction w generalizing row with
  | nil => cases row <;> rfl
  | cons a w ih =>
    cases row with
    | nil => rfl
    | cons s ss => simp [widen, ih]

theorem widen_ge (w : List ℕ) (row : List Text) (i : ℕ) (hi : i < w.length) :
    w.getD i 0 ≤ (widen w row).getD i 0 ∧ (i < row.length → (row.getD i []).length ≤ (widen w row).getD i 0) := by
  induction w generalizing row i with
  | nil => simp at hi
  | cons a w ih =>
    cases row with
    | nil => simp [widen]
    | cons s ss =>
      cases i with
      | zero => simp only [widen, List.getD_cons_zero]; split_ifs <;> omega
      | succ i =>
        have := ih ss i (by simpa using hi)
        simpa [widen] using this

theorem foldl_widen (table : List (List Text)) (w : List ℕ) :
    (table.foldl widen w).length = w.length ∧
    ∀ i < w.length, w.getD i 0 ≤ (table.foldl widen w).getD i 0 ∧
      ∀ row ∈ table, i < row.length → (row.getD i []).length ≤ (table.foldl widen w).getD i 0 := by
  induction table generalizing w with
  | nil => simp
  | cons r table ih =>
    obtain ⟨h1, h2⟩ := ih (widen w r)
    rw [widen_length] at h1 h2
    refine ⟨h1, fun i hi => ?_⟩
    obtain ⟨a1, a2⟩ := widen_ge w r i hi
    obtain ⟨b1, b2⟩ := h2 i hi
    refine ⟨le_trans a1 b1, fun row hrow hlt => ?_⟩
    rcases List.mem_cons.1 hrow with rfl | hrow
    · exact le_trans (a2 hlt) b1
    · exact b2 row hrow hlt

theorem initialWidths_length (bikes : List TBike) : (initialWidths bikes).length = 1 + 2 * bikes.length := by
  unfold initialWidths
  rw [List.length_cons, List.length_flatMap]
  simp
  ring

theorem initialWidths_get (bikes : List TBike) (i : ℕ) (hi : i < bikes.length) :
    bikes[i].name.length ≤
      (initialWidths bikes).getD (2 * i + 1) 0 + (initialWidths bikes).getD (2 * i + 2) 0 := by
  unfold initialWidths
  rw [List.getD_cons_succ, List.getD_cons_succ]
  induction bikes generalizing i with
  | nil => simp at hi
  | cons b bs ih =>
    cases i with
    | zero => simp; omega
    | succ i =>
      have := ih i (by simpa using hi)
      rw [show 2 * (i + 1) = 2 * i + 1 + 1 by ring, show 2 * i + 1 + 1 + 1 = (2 * i + 1) + 1 + 1 by ring]
      simpa using this

/-! ### The lines -/

/-- The lines of the drawn table. -/
def rstLines (bikes : List TBike) (table : List (List Text)) : List Text :=
  let largest := table.foldl widen (initialWidths bikes)
  rstTop largest bikes :: rstNames largest bikes ::
    ((table.zipIdx.flatMap fun rj => [rstRule largest (rstDash rj.2) rj.1.length, rstRow largest rj.1]) ++
      [(largest.flatMap fun n => '+' :: List.replicate (n + 2) (rstDash (table.length - 1))) ++ ['+']])

theorem intercalate_append_last (pre : List Text) (last : Text) :
    List.intercalate ['\n'] (pre ++ [last]) = pre.flatMap (fun l => l ++ ['\n']) ++ last := by
  induction pre with
  | nil => simp [List.intercalate]
  | cons a pre ih =>
    cases pre with
    | nil => simp [List.intercalate]
    | cons b pre =>
      rw [List.flatMap_cons, List.append_assoc, ← ih]
      simp [List.intercalate, List.intersperse]

theorem rstText_lines (bikes : List TBike) (table : List (List Text)) :
    rstText bikes table = List.intercalate ['\n'] (rstLines bikes table) := by
  have : rstLines bikes table = (rstTop (table.foldl widen (initialWidths bikes)) bikes ::
      rstNames (table.foldl widen (initialWidths bikes)) bikes ::
      (table.zipIdx.flatMap fun rj => [rstRule (table.foldl widen (initialWidths bikes)) (rstDash rj.2) rj.1.length,
        rstRow (table.foldl widen (initialWidths bikes)) rj.1])) ++
      [((table.foldl widen (initialWidths bikes)).flatMap fun n =>
        '+' :: List.replicate (n + 2) (rstDash (table.length - 1))) ++ ['+']] := by
    simp [rstLines]
  rw [this, intercalate_append_last]
  unfold rstText
  simp only [List.flatMap_cons, List.flatMap_assoc, List.flatMap_nil, List.append_assoc, List.append_nil,
    List.cons_append, List.nil_append]

theorem rstRule_length (w : List ℕ) (dash : Char) :
    (rstRule w dash w.length).length = ((List.range w.length).map fun i => w.getD i 0 + 3).sum + 1 := by
  unfold rstRule
  rw [List.length_append, List.length_flatMap]
  simp
  ring

theorem rstBottom_length (w : List ℕ) (dash : Char) :
    ((w.flatMap fun n => '+' :: List.replicate (n + 2) dash) ++ ['+']).length =
      ((List.range w.length).map fun i => w.getD i 0 + 3).sum + 1 := by
  rw [List.length_append, flatMap_eq_range w 0, List.length_flatMap]
  simp
  ring

theorem rstRow_length (w : List ℕ) (row : List Text) (hlen : row.length = w.length)
    (h : ∀ i < w.length, (row.getD i []).length ≤ w.getD i 0) :
    (rstRow w row).length = ((List.range w.length).map fun i => w.getD i 0 + 3).sum + 1 := by
  unfold rstRow
  rw [List.length_cons, length_zipIdx_flatMap row [], hlen]
  congr 1
  refine sum_map_congr fun i hi => ?_
  have := h i (List.mem_range.1 hi)
  simp only [List.length_append, List.length_cons, List.length_replicate, List.length_nil]
  omega

theorem rstTop_length (w : List ℕ) (bikes : List TBike) (hw : w.length = 1 + 2 * bikes.length) :
    (rstTop w bikes).length = ((List.range w.length).map fun i => w.getD i 0 + 3).sum + 1 := by
  unfold rstTop
  rw [hw, sum_range_pairs]
  rw [List.length_append, List.cons_append, List.length_cons, List.length_append, List.length_flatMap,
    List.length_replicate]
  have : ((List.range bikes.length).map fun i => ('+' :: List.replicate
      (w.getD (2 * i + 1) 0 + w.getD (2 * i + 2) 0 + 5) '-').length).sum =
      ((List.range bikes.length).map fun i => w.getD (2 * i + 1) 0 + 3 + (w.getD (2 * i + 2) 0 + 3)).sum :=
    sum_map_congr fun i _ => by simp; ring
  rw [this]
  simp only [List.length_cons, List.length_nil]
  ring

theorem rstNames_length (w : List ℕ) (bikes : List TBike) (hw : w.length = 1 + 2 * bikes.length)
    (h : ∀ i (hi : i < bikes.length), bikes[i].name.length ≤ w.getD (2 * i + 1) 0 + w.getD (2 * i + 2) 0) :
    (rstNames w bikes).length = ((List.range w.length).map fun i => w.getD i 0 + 3).sum + 1 := by
  unfold rstNames
  rw [hw, sum_range_pairs]
  rw [List.length_append, List.cons_append, List.length_cons, List.length_append,
    length_zipIdx_flatMap bikes ⟨[], []⟩, List.length_replicate]
  have : ((List.range bikes.length).map fun i => (['|', ' '] ++ (bikes.getD i ⟨[], []⟩).name ++ List.replicate
      (w.getD (2 * i + 1) 0 + w.getD (2 * i + 2) 0 + 4 - (bikes.getD i ⟨[], []⟩).name.length) ' ').length).sum =
      ((List.range bikes.length).map fun i => w.getD (2 * i + 1) 0 + 3 + (w.getD (2 * i + 2) 0 + 3)).sum := by
    refine sum_map_congr fun i hi => ?_
    have hi' := List.mem_range.1 hi
    have := h i hi'
    have e : (bikes.getD i ⟨[], []⟩).name = bikes[i].name := by simp [List.getD, hi']
    rw [e]
    simp only [List.length_append, List.length_cons, List.length_replicate, List.length_nil]
    omega
  simp only [] at this ⊢
  rw [this]
  simp only [List.length_cons, List.length_nil]
  ring

/-! ### No line break inside a line -/

theorem dash_ne (j : ℕ) : rstDash j ≠ '\n' ∧ rstDash j ≠ '|' := by
  unfold rstDash
  split_ifs <;> decide

theorem rstLines_clean (bikes : List TBike) (table : List (List Text))
    (hnames : ∀ b ∈ bikes, '\n' ∉ b.name) (hcells : ∀ row ∈ table, ∀ c ∈ row, '\n' ∉ c) :
    ∀ l ∈ rstLines bikes table, '\n' ∉ l := by
  have hrep : ∀ (k : ℕ) (c : Char), c ≠ '\n' → '\n' ∉ List.replicate k c := fun k c hc h =>
    hc (List.eq_of_mem_replicate h).symm
  unfold rstLines
  intro l hl
  simp only [List.mem_cons, List.mem_append, List.mem_flatMap, List.not_mem_nil, or_false] at hl
  rcases hl with rfl | rfl | ⟨⟨row, j⟩, hrj, rfl | rfl⟩ | rfl
  · unfold rstTop
    simp only [List.cons_append, List.mem_cons, List.mem_append, List.mem_flatMap, List.not_mem_nil, or_false]
    rintro (h | (h | ⟨i, _, h | h⟩) | h)
    · exact absurd h (by decide)
    · exact hrep _ _ (by decide) h
    · exact absurd h (by decide)
    · exact hrep _ _ (by decide) h
    · exact absurd h (by decide)
  · unfold rstNames
    simp only [List.cons_append, List.mem_cons, List.mem_append, List.mem_flatMap, List.not_mem_nil, or_false,
      List.nil_append]
    rintro (h | (h | ⟨⟨b, i⟩, hb, h | h | h | h⟩) | h)
    · exact absurd h (by decide)
    · exact hrep _ _ (by decide) h
    · exact absurd h (by decide)
    · exact absurd h (by decide)
    · exact hnames b (by
        have := List.mem_zipIdx hb
        simp at this
        rw [this.2]; exact List.getElem_mem _) h
    · exact hrep _ _ (by decide) h
    · exact absurd h (by decide)
  · unfold rstRule
    simp only [List.mem_cons, List.mem_append, List.mem_flatMap, List.not_mem_nil, or_false]
    rintro (⟨i, _, h | h⟩ | h)
    · exact absurd h (by decide)
    · exact hrep _ _ (dash_ne _).1 h
    · exact absurd h (by decide)
  · have hrow : row ∈ table := by
      have := List.mem_zipIdx hrj
      simp at this
      rw [this.2]; exact List.getElem_mem _
    unfold rstRow
    simp only [List.cons_append, List.mem_cons, List.mem_append, List.mem_flatMap, List.not_mem_nil, or_false]
    rintro (h | ⟨⟨c, i⟩, hc, h | (h | h) | h | h⟩)
    · exact absurd h (by decide)
    · exact absurd h (by decide)
    · exact hcells row hrow c (by
        have := List.mem_zipIdx hc
        simp at this
        rw [this.2]; exact List.getElem_mem _) h
    · exact hrep _ _ (by decide) h
    · exact absurd h (by decide)
    · exact absurd h (by decide)
  · simp only [List.mem_cons, List.mem_append, List.mem_flatMap, List.not_mem_nil, or_false]
    rintro (⟨i, _, h | h⟩ | h)
    · exact absurd h (by decide)
    · exact hrep _ _ (dash_ne _).1 h
    · exact absurd h (by decide)

theorem splitOn_rstText (bikes : List TBike) (table : List (List Text))
    (hnames : ∀ b ∈ bikes, '\n' ∉ b.name) (hcells : ∀ row ∈ table, ∀ c ∈ row, '\n' ∉ c) :
    (rstText bikes table).splitOn '\n' = rstLines bikes table := by
  rw [rstText_lines]
  exact List.splitOn_intercalate _ (rstLines_clean bikes table hnames hcells) (by simp [rstLines])

theorem rstLines_length (bikes : List TBike) (table : List (List Text))
    (hrows : ∀ row ∈ table, row.length = 1 + 2 * bikes.length) :
    ∀ l ∈ rstLines bikes table, l.length = ((List.range (1 + 2 * bikes.length)).map fun i =>
      (table.foldl widen (initialWidths bikes)).getD i 0 + 3).sum + 1 := by
  obtain ⟨hlen, hge⟩ := foldl_widen table (initialWidths bikes)
  rw [initialWidths_length] at hlen hge
  unfold rstLines
  intro l hl
  simp only [List.mem_cons, List.mem_append, List.mem_flatMap, List.not_mem_nil, or_false] at hl
  rcases hl with rfl | rfl | ⟨⟨row, j⟩, hrj, rfl | rfl⟩ | rfl
  · rw [rstTop_length _ _ hlen, hlen]
  · rw [rstNames_length _ _ hlen ?_, hlen]
    intro i hi
    have h1 := (hge (2 * i + 1) (by omega)).1
    have h2 := (hge (2 * i + 2) (by omega)).1
    have := initialWidths_get bikes i hi
    omega
  · have hrow : row ∈ table := by
      have := List.mem_zipIdx hrj
      simp at this
      rw [this.2]; exact List.getElem_mem _
    rw [hrows row hrow, ← hlen, rstRule_length]
  · have hrow : row ∈ table := by
      have := List.mem_zipIdx hrj
      simp at this
      rw [this.2]; exact List.getElem_mem _
    rw [rstRow_length _ _ (by rw [hrows row hrow, hlen]) ?_, hlen]
    intro i hi
    rw [hlen] at hi
    exact (hge i hi).2 row hrow (by rw [hrows row hrow]; exact hi)
  · rw [rstBottom_length, hlen]

/-- The rows `create_rst_table` draws, the sub header first. -/
theorem createRst_rows (t : Table) (hrows : ∀ row ∈ t.tableData, row.length = 1 + 2 * t.bikes.length) :
    ∀ row ∈ (createRst t).2.tableData, row.length = 1 + 2 * t.bikes.length := by
  unfold createRst
  simp only [List.mem_cons]
  rintro row (rfl | hrow)
  · unfold subHeader
    rw [List.length_cons, List.length_flatMap]
    split_ifs <;> simp <;> ring
  · split_ifs at hrow with hl
    · unfold mathNames at hrow
      obtain ⟨r, hr, rfl⟩ := List.mem_map.1 hrow
      rw [← hrows r hr]
      cases r <;> simp
    · exact hrows row hrow

theorem createRst_clean (t : Table) (x : Char) (hx : x ∉ mathRole ['\\', 's', 'i', 'g', 'm', 'a', 'v'])
    (hx' : x ∉ ['V', 'a', 'r', 'i', 'a', 'b', 'l', 'e'])
    (hcells : ∀ row ∈ t.tableData, ∀ c ∈ row, x ∉ c) :
    ∀ row ∈ (createRst t).2.tableData, ∀ c ∈ row, x ∉ c := by
  simp only [mathRole, List.mem_append, List.mem_cons, List.not_mem_nil, or_false, not_or] at hx hx'
  unfold createRst
  simp only [List.mem_cons]
  rintro row (rfl | hrow) c hc
  · unfold subHeader at hc
    simp only [List.mem_cons, List.mem_flatMap] at hc
    rcases hc with rfl | ⟨b, _, hc⟩
    · simp [hx']
    · split_ifs at hc <;> simp only [List.mem_cons, List.not_mem_nil, or_false] at hc <;>
        rcases hc with rfl | rfl <;> simp [mathRole, hx, hx']
  · split_ifs at hrow with hl
    · unfold mathNames at hrow
      obtain ⟨r, hr, rfl⟩ := List.mem_map.1 hrow
      cases r with
      | nil => simp at hc
      | cons n r =>
        rcases List.mem_cons.1 hc with rfl | hc
        · have := hcells _ hr n (by simp)
          simp [mathRole, hx, this]
        · exact hcells _ hr c (List.mem_cons_of_mem _ hc)
    · exact hcells row hrow c hc

/-! ## C59 -/

/-- **C59 (first call).** All lines of the drawn table have the same width, for every number
of bicycles and rows and all texts without line breaks. -/
theorem C59_equal_widths_partial (t : Table)
    (hrows : ∀ row ∈ t.tableData, row.length = 1 + 2 * t.bikes.length)
    (hnames : ∀ b ∈ t.bikes, '\n' ∉ b.name) (hcells : ∀ row ∈ t.tableData, ∀ c ∈ row, '\n' ∉ c) :
    ∃ W, ∀ line ∈ (createRst t).1.splitOn '\n', line.length = W := by
  have hc := createRst_clean t '\n' (by decide) (by decide) hcells
  have hr := createRst_rows t hrows
  refine ⟨((List.range (1 + 2 * t.bikes.length)).map fun i =>
      ((createRst t).2.tableData.foldl widen (initialWidths t.bikes)).getD i 0 + 3).sum + 1,
    fun line hline => ?_⟩
  have : (createRst t).1 = rstText t.bikes (createRst t).2.tableData := rfl
  rw [this, splitOn_rstText _ _ hnames hc] at hline
  exact rstLines_length t.bikes _ hr line hline

theorem trim_pad (c : Text) (k : ℕ) (h : Spec.trim c = c) :
    Spec.trim (' ' :: c ++ List.replicate k ' ' ++ [' ']) = c := by
  have hd : ∀ (l r : Text), (∀ x ∈ l, x = ' ') → List.dropWhile (fun x => decide (x = ' ')) (l ++ r) =
      List.dropWhile (fun x => decide (x = ' ')) r := by
    intro l r hl
    induction l with
    | nil => rfl
    | cons a l ih =>
      rw [List.cons_append, List.dropWhile_cons_of_pos (by simp [hl a]), ih fun x hx => hl x (by simp [hx])]
  have hrd : List.replicate k ' ' ++ [' '] = List.replicate (k + 1) ' ' := by
    rw [List.replicate_succ']
  rw [List.append_assoc, hrd, List.cons_append]
  have hs : ∀ n, ∀ x ∈ List.replicate n ' ', x = ' ' := fun n x hx => List.eq_of_mem_replicate hx
  cases c with
  | nil =>
    unfold Spec.trim
    have := hd (' ' :: List.replicate (k + 1) ' ') [] (by
      intro x hx; rcases List.mem_cons.1 hx with rfl | hx
      · rfl
      · exact hs _ x hx)
    simp only [List.append_nil] at this
    rw [List.nil_append, this]
    rfl
  | cons a c =>
    have ha : a ≠ ' ' := by
      rintro rfl
      have hl := congrArg List.length h
      unfold Spec.trim at hl
      rw [List.dropWhile_cons_of_pos (by simp)] at hl
      have h1 := (List.dropWhile_sublist (l := (c.dropWhile fun x => decide (x = ' ')).reverse)
        (fun x => decide (x = ' '))).length_le
      have h2 := (List.dropWhile_sublist (l := c) (fun x => decide (x = ' '))).length_le
      simp only [List.length_reverse, List.length_cons] at hl h1
      omega
    unfold Spec.trim at h ⊢
    rw [List.dropWhile_cons_of_neg (by simp [ha])] at h
    rw [List.dropWhile_cons_of_pos (by simp), List.cons_append, List.dropWhile_cons_of_neg (by simp [ha]),
      ← List.cons_append, List.reverse_append, List.reverse_replicate, hd _ _ (hs _)]
    exact h

theorem rstRow_splitOn (w : List ℕ) (row : List Text) (hbar : ∀ c ∈ row, '|' ∉ c)
    (htrim : ∀ c ∈ row, Spec.trim c = c) :
    ((rstRow w row).splitOn '|').map Spec.trim = [] :: row ++ [[]] := by
  obtain ⟨g, hg⟩ : ∃ g : Text × ℕ → Text, g = fun si =>
    ' ' :: si.1 ++ List.replicate (w.getD si.2 0 - si.1.length) ' ' ++ [' '] := ⟨_, rfl⟩
  have e : rstRow w row = List.intercalate ['|'] ([] :: row.zipIdx.map g ++ [[]]) := by
    have gen : ∀ l : List (Text × ℕ), (l.flatMap fun si => g si ++ ['|']) =
        List.intercalate ['|'] (l.map g ++ [[]]) := by
      intro l
      induction l with
      | nil => simp [List.intercalate]
      | cons a l ih =>
        rw [List.flatMap_cons, ih]
        cases l with
        | nil => simp [List.intercalate]
        | cons b l => simp [List.intercalate]
    unfold rstRow
    have h2 : (fun si : Text × ℕ => ' ' :: si.1 ++ List.replicate (w.getD si.2 0 - si.1.length) ' ' ++ [' ', '|']) =
        fun si => g si ++ ['|'] := by
      funext si
      rw [hg]
      simp
    rw [h2, gen]
    cases row.zipIdx <;> simp [List.intercalate]
  have hmem : ∀ si ∈ row.zipIdx, si.1 ∈ row := by
    intro si hsi
    have := List.mem_zipIdx hsi
    simp at this
    rw [this.2]; exact List.getElem_mem _
  rw [e, List.splitOn_intercalate]
  · simp only [List.map_cons, List.map_append, List.map_map, List.map_nil]
    have h3 : row.zipIdx.map (Spec.trim ∘ g) = row := by
      conv_rhs => rw [← List.zipIdx_map_fst 0 row]
      refine List.map_congr_left fun si hsi => ?_
      rw [Function.comp, hg]
      exact trim_pad _ _ (htrim _ (hmem si hsi))
    rw [h3]
    rfl
  · intro l hl
    simp only [List.cons_append, List.mem_cons, List.mem_append, List.mem_map, List.not_mem_nil, or_false] at hl
    rcases hl with rfl | ⟨si, hsi, rfl⟩ | rfl
    · simp
    · rw [hg]
      have := hbar _ (hmem si hsi)
      simp only [List.cons_append, List.mem_cons, List.mem_append, List.not_mem_nil, or_false, not_or]
      refine ⟨by decide, ⟨this, fun h => ?_⟩, by decide⟩
      exact absurd (List.eq_of_mem_replicate h) (by decide)
    · simp
  · simp

theorem flatMap_pair_get_fst {A B : Type} (l : List A) (f g : A → B) (j : ℕ) (a : A) (h : l[j]? = some a) :
    (l.flatMap fun x => [f x, g x])[2 * j]? = some (f a) := by
  induction l generalizing j with
  | nil => simp at h
  | cons b l ih =>
    cases j with
    | zero => simp at h; simp [h]
    | succ j =>
      have := ih j (by simpa using h)
      rw [show 2 * (j + 1) = 2 * j + 1 + 1 by ring]
      simpa using this

theorem flatMap_pair_get {A B : Type} (l : List A) (f g : A → B) (j : ℕ) (a : A) (h : l[j]? = some a) :
    (l.flatMap fun x => [f x, g x])[2 * j + 1]? = some (g a) := by
  induction l generalizing j with
  | nil => simp at h
  | cons b l ih =>
    cases j with
    | zero => simp at h; simp [h]
    | succ j =>
      have := ih j (by simpa using h)
      rw [show 2 * (j + 1) + 1 = 2 * j + 1 + 1 + 1 by ring]
      simpa using this

/-- **C59 (content).** Reading a drawn table back gives its cells: line `2 j + 3` split at the
bars, with the padding removed, is row `j` (row 0 is the sub header). -/
theorem C59_cells_read_back (t : Table) (hnames : ∀ b ∈ t.bikes, '\n' ∉ b.name)
    (hcells : ∀ row ∈ t.tableData, ∀ c ∈ row, '\n' ∉ c ∧ '|' ∉ c ∧ Spec.trim c = c) (hl : t.latex = false)
    (j : ℕ) (row : List Text) (hj : t.tableData[j]? = some row) :
    ∃ line, ((createRst t).1.splitOn '\n')[2 * j + 5]? = some line ∧
      (line.splitOn '|').map Spec.trim = [] :: row ++ [[]] := by
  have hc := createRst_clean t '\n' (by decide) (by decide) fun r hr c hc => (hcells r hr c hc).1
  have e : (createRst t).1 = rstText t.bikes (createRst t).2.tableData := rfl
  have hd : (createRst t).2.tableData[j + 1]? = some row := by
    simp [createRst, hl, hj]
  have hrow : row ∈ t.tableData := List.mem_of_getElem? hj
  refine ⟨rstRow ((createRst t).2.tableData.foldl widen (initialWidths t.bikes)) row, ?_,
    rstRow_splitOn _ _ (fun c hc => (hcells row hrow c hc).2.1) fun c hc => (hcells row hrow c hc).2.2⟩
  rw [e, splitOn_rstText _ _ hnames hc]
  unfold rstLines
  rw [show 2 * j + 5 = (2 * (j + 1) + 1) + 1 + 1 by ring, List.getElem?_cons_succ, List.getElem?_cons_succ]
  have hz : (createRst t).2.tableData.zipIdx[j + 1]? = some (row, j + 1) := by
    rw [List.getElem?_zipIdx, hd]
    simp
  have hp := flatMap_pair_get (createRst t).2.tableData.zipIdx
    (fun rj => rstRule ((createRst t).2.tableData.foldl widen (initialWidths t.bikes)) (rstDash rj.2) rj.1.length)
    (fun rj => rstRow ((createRst t).2.tableData.foldl widen (initialWidths t.bikes)) rj.1) (j + 1) _ hz
  rw [List.getElem?_append_left]
  · exact hp
  · exact (List.getElem?_eq_some_iff.1 hp).1

/-- What the sub header says: the word Variable, then for every bicycle the value and the
standard deviation. -/
def Spec.subHeaderCells : ℕ → List Text
  | 0 => []
  | n + 1 => ['v'] :: ['s', 'i', 'g', 'm', 'a'] :: Spec.subHeaderCells n

/-- **C59 (content).** The first row read back is the sub header. -/
theorem C59_sub_header (t : Table) (hnames : ∀ b ∈ t.bikes, '\n' ∉ b.name)
    (hcells : ∀ row ∈ t.tableData, ∀ c ∈ row, '\n' ∉ c) (hl : t.latex = false) :
    ∃ line, ((createRst t).1.splitOn '\n')[3]? = some line ∧
      (line.splitOn '|').map Spec.trim =
        [] :: (['V', 'a', 'r', 'i', 'a', 'b', 'l', 'e'] :: Spec.subHeaderCells t.bikes.length) ++ [[]] := by
  have hc := createRst_clean t '\n' (by decide) (by decide) hcells
  have e : (createRst t).1 = rstText t.bikes (createRst t).2.tableData := rfl
  have hsub : subHeader t.latex t.bikes =
      ['V', 'a', 'r', 'i', 'a', 'b', 'l', 'e'] :: Spec.subHeaderCells t.bikes.length := by
    unfold subHeader
    rw [hl]
    congr 1
    induction t.bikes with
    | nil => rfl
    | cons b bs ih => rw [List.flatMap_cons, ih]; rfl
  have hmem : ∀ n, ∀ c ∈ Spec.subHeaderCells n, c = ['v'] ∨ c = ['s', 'i', 'g', 'm', 'a'] := by
    intro n
    induction n with
    | zero => intro c hc; cases hc
    | succ n ih =>
      intro c hc
      rcases List.mem_cons.1 hc with rfl | hc
      · exact Or.inl rfl
      · rcases List.mem_cons.1 hc with rfl | hc
        · exact Or.inr rfl
        · exact ih c hc
  have hd : (createRst t).2.tableData[0]? = some (subHeader t.latex t.bikes) := by simp [createRst]
  have hok : ∀ c ∈ subHeader t.latex t.bikes, '|' ∉ c ∧ Spec.trim c = c := by
    rw [hsub]
    intro c hc
    rcases List.mem_cons.1 hc with rfl | hc
    · exact ⟨by decide, by decide⟩
    · rcases hmem _ c hc with rfl | rfl
      · exact ⟨by decide, by decide⟩
      · exact ⟨by decide, by decide⟩
  refine ⟨rstRow ((createRst t).2.tableData.foldl widen (initialWidths t.bikes))
    (subHeader t.latex t.bikes), ?_, ?_⟩
  · rw [e, splitOn_rstText _ _ hnames hc]
    unfold rstLines
    rw [show 3 = (2 * 0 + 1) + 1 + 1 by ring, List.getElem?_cons_succ, List.getElem?_cons_succ]
    have hz : (createRst t).2.tableData.zipIdx[0]? = some (subHeader t.latex t.bikes, 0) := by
      rw [List.getElem?_zipIdx, hd]
      simp
    have hp := flatMap_pair_get (createRst t).2.tableData.zipIdx
      (fun rj => rstRule ((createRst t).2.tableData.foldl widen (initialWidths t.bikes)) (rstDash rj.2) rj.1.length)
      (fun rj => rstRow ((createRst t).2.tableData.foldl widen (initialWidths t.bikes)) rj.1) 0 _ hz
    rw [List.getElem?_append_left]
    · exact hp
    · exact (List.getElem?_eq_some_iff.1 hp).1
  · rw [rstRow_splitOn _ _ (fun c hc => (hok c hc).1) fun c hc => (hok c hc).2, hsub]

/-- **C59 (content).** The rule below the names of the bicycles consists of `+` and `=`, the
rules between the rows below of `+` and `-`, as reStructuredText marks the end of a header. -/
theorem C59_header_rule (t : Table) (hnames : ∀ b ∈ t.bikes, '\n' ∉ b.name)
    (hcells : ∀ row ∈ t.tableData, ∀ c ∈ row, '\n' ∉ c) (j : ℕ) (hj : j ≤ t.tableData.length) :
    ∃ line, ((createRst t).1.splitOn '\n')[2 * j + 2]? = some line ∧
      (j = 0 → (∀ c ∈ line, c = '+' ∨ c = '=') ∧ '=' ∈ line) ∧
      (j ≠ 0 → ∀ c ∈ line, c = '+' ∨ c = '-') := by
  have hc := createRst_clean t '\n' (by decide) (by decide) hcells
  have e : (createRst t).1 = rstText t.bikes (createRst t).2.tableData := rfl
  have hlen : j < (createRst t).2.tableData.length := by
    simp only [createRst, List.length_cons]
    split_ifs
    · simp [mathNames]; omega
    · omega
  have hchars : ∀ (w : List ℕ) (dash : Char) (n : ℕ), ∀ c ∈ rstRule w dash n, c = '+' ∨ c = dash := by
    intro w dash n c hc
    unfold rstRule at hc
    simp only [List.mem_append, List.mem_flatMap, List.mem_cons, List.not_mem_nil, or_false] at hc
    rcases hc with ⟨_, _, h | h⟩ | h
    · exact Or.inl h
    · exact Or.inr (List.eq_of_mem_replicate h)
    · exact Or.inl h
  refine ⟨rstRule ((createRst t).2.tableData.foldl widen (initialWidths t.bikes)) (rstDash j)
    ((createRst t).2.tableData[j]).length, ?_, ?_, ?_⟩
  · rw [e, splitOn_rstText _ _ hnames hc]
    unfold rstLines
    rw [show 2 * j + 2 = (2 * j) + 1 + 1 by ring, List.getElem?_cons_succ, List.getElem?_cons_succ]
    have hz : (createRst t).2.tableData.zipIdx[j]? = some ((createRst t).2.tableData[j], j) := by
      rw [List.getElem?_zipIdx, List.getElem?_eq_getElem hlen]
      simp
    have hp := flatMap_pair_get_fst (createRst t).2.tableData.zipIdx
      (fun rj => rstRule ((createRst t).2.tableData.foldl widen (initialWidths t.bikes)) (rstDash rj.2) rj.1.length)
      (fun rj => rstRow ((createRst t).2.tableData.foldl widen (initialWidths t.bikes)) rj.1) j _ hz
    rw [List.getElem?_append_left]
    · exact hp
    · exact (List.getElem?_eq_some_iff.1 hp).1
  · rintro rfl
    refine ⟨fun c hcm => by simpa [rstDash] using hchars _ _ _ c hcm, ?_⟩
    have h0 : (createRst t).2.tableData[0] = subHeader t.latex t.bikes := by simp [createRst]
    rw [h0]
    unfold rstRule subHeader
    simp [rstDash, List.range_succ_eq_map]
  · intro hj0 c hcm
    simpa [rstDash, hj0] using hchars _ _ _ c hcm

/-! ### The second call -/

theorem count_rstText (bikes : List TBike) (table : List (List Text)) :
    (rstText bikes table).count '\n' = 2 + (bikes.map fun b => b.name.count '\n').sum +
      (table.map fun row => 2 + (row.map fun c => c.count '\n').sum).sum := by
  have hrep : ∀ (k : ℕ) (c : Char), c ≠ '\n' → (List.replicate k c).count '\n' = 0 := fun k c hc =>
    List.count_eq_zero_of_not_mem fun h => hc (List.eq_of_mem_replicate h).symm
  have hzip : ∀ {A : Type} (l : List A) (f : A × ℕ → ℕ) (g : A → ℕ), (∀ a i, f (a, i) = g a) →
      (l.zipIdx.map f).sum = (l.map g).sum := by
    intro A l f g hfg
    have : l.zipIdx.map f = l.map g := by
      conv_rhs => rw [← List.zipIdx_map_fst 0 l, List.map_map]
      refine List.map_congr_left fun si _ => ?_
      obtain ⟨a, i⟩ := si
      exact hfg a i
    rw [this]
  have hzero : ∀ {A : Type} (l : List A), (l.map fun _ => 0).sum = 0 := by
    intro A l; simp
  have hrule : ∀ w n k, (rstRule w (rstDash k) n).count '\n' = 0 := by
    intro w n k
    unfold rstRule
    rw [List.count_append, List.count_flatMap]
    have : (List.count '\n' ∘ fun i => '+' :: List.replicate (w.getD i 0 + 2) (rstDash k)) = fun _ => 0 := by
      funext i
      simp [List.count_cons, hrep _ _ (dash_ne k).1]
    rw [this, hzero]
    decide
  have hrow : ∀ w (row : List Text), (rstRow w row).count '\n' = (row.map fun c => c.count '\n').sum := by
    intro w row
    unfold rstRow
    rw [List.count_cons, List.count_flatMap, hzip row _ fun c => c.count '\n']
    · simp
    · intro c i
      simp [List.count_cons, List.count_append, hrep]
  unfold rstText
  simp only [List.count_append, List.count_flatMap]
  have h1 : (rstTop (table.foldl widen (initialWidths bikes)) bikes).count '\n' = 0 := by
    unfold rstTop
    rw [List.count_append, List.cons_append, List.count_cons, List.count_append, List.count_flatMap,
      hrep _ _ (by decide)]
    have : (List.count '\n' ∘ fun i => '+' :: List.replicate
        ((table.foldl widen (initialWidths bikes)).getD (2 * i + 1) 0 +
          (table.foldl widen (initialWidths bikes)).getD (2 * i + 2) 0 + 5) '-') = fun _ => 0 := by
      funext i
      simp [List.count_cons, hrep]
    rw [this, hzero]
    decide
  have h2 : (rstNames (table.foldl widen (initialWidths bikes)) bikes).count '\n' =
      (bikes.map fun b => b.name.count '\n').sum := by
    unfold rstNames
    rw [List.count_append, List.cons_append, List.count_cons, List.count_append, List.count_flatMap,
      hrep _ _ (by decide), hzip bikes _ fun b => b.name.count '\n']
    · simp
    · intro b i
      simp [List.count_cons, List.count_append, hrep]
  have h3 : (table.zipIdx.map (List.count '\n' ∘ fun rj =>
      rstRule (table.foldl widen (initialWidths bikes)) (rstDash rj.2) rj.1.length ++ ['\n'] ++
        rstRow (table.foldl widen (initialWidths bikes)) rj.1 ++ ['\n'])).sum =
      (table.map fun row => 2 + (row.map fun c => c.count '\n').sum).sum := by
    refine hzip table _ _ fun row j => ?_
    simp only [Function.comp, List.count_append, hrule, hrow]
    simp
    omega
  have h4 : ((table.foldl widen (initialWidths bikes)).map (List.count '\n' ∘ fun n =>
      '+' :: List.replicate (n + 2) (rstDash (table.length - 1)))).sum = 0 := by
    have : (List.count '\n' ∘ fun n => '+' :: List.replicate (n + 2) (rstDash (table.length - 1))) =
        fun _ => 0 := by
      funext i
      simp [List.count_cons, hrep _ _ (dash_ne _).1]
    rw [this, hzero]
  rw [h1, h2, h3, h4]
  simp
  omega

/-- **C59 (what fails).** For every table, a second call returns another text: it draws a
second sub header (and with LaTeX names wraps every name once more). -/
theorem C59_second_call_differs (t : Table) : (createRst (createRst t).2).1 ≠ (createRst t).1 := by
  have hm : ∀ table : List (List Text), ((mathNames table).map fun row =>
      2 + (row.map fun c => c.count '\n').sum).sum = (table.map fun row =>
      2 + (row.map fun c => c.count '\n').sum).sum := by
    intro table
    unfold mathNames
    rw [List.map_map]
    congr 1
    refine List.map_congr_left fun row _ => ?_
    cases row with
    | nil => rfl
    | cons n r => simp [mathRole, List.count_append, List.count_cons]
  intro h
  have hc := congrArg (List.count '\n') h
  have key : ∀ u : Table, ((createRst u).1.count '\n') = 2 + (u.bikes.map fun b => b.name.count '\n').sum +
      ((2 + ((subHeader u.latex u.bikes).map fun c => c.count '\n').sum) +
        (u.tableData.map fun row => 2 + (row.map fun c => c.count '\n').sum).sum) := by
    intro u
    have : (createRst u).1 = rstText u.bikes (createRst u).2.tableData := rfl
    rw [this, count_rstText]
    unfold createRst
    simp only [List.map_cons, List.sum_cons]
    split_ifs
    · rw [hm]
    · rfl
  rw [key, key] at hc
  have hd : ((createRst t).2.tableData.map fun row => 2 + (row.map fun c => c.count '\n').sum).sum =
      (2 + ((subHeader t.latex t.bikes).map fun c => c.count '\n').sum) +
        (t.tableData.map fun row => 2 + (row.map fun c => c.count '\n').sum).sum := by
    unfold createRst
    simp only [List.map_cons, List.sum_cons]
    split_ifs
    · rw [hm]
    · rfl
  rw [hd] at hc
  have hb : (createRst t).2.bikes = t.bikes := rfl
  have hl : (createRst t).2.latex = t.latex := rfl
  rw [hb, hl] at hc
  omega

/-- non-vacuity of C59: a table with two bicycles and one row. -/
example : ∃ t : Table, (∀ row ∈ t.tableData, row.length = 1 + 2 * t.bikes.length) ∧
    (∀ b ∈ t.bikes, '\n' ∉ b.name) ∧
    (∀ row ∈ t.tableData, ∀ c ∈ row, '\n' ∉ c ∧ '|' ∉ c ∧ Spec.trim c = c) ∧ t.latex = false ∧
    t.tableData[0]? = some [['w'], ['1'], ['2'], ['N', 'A'], ['N', 'A']] := by
  refine ⟨⟨false, exBikes, ["w"], [[['w'], ['1'], ['2'], ['N', 'A'], ['N', 'A']]]⟩, ?_, ?_, ?_, rfl, rfl⟩
  · simp [exBikes]
  · simp [exBikes]
  · simp only [List.mem_singleton, forall_eq]
    decide

/-! ## C85 -/

/-- Specification: the variable names of docs/data.rst and of the Benchmark sets the package
computes, with all part letters and up to six orientations. -/
def Spec.documentedNames : List String :=
  let parts := ["B", "H", "F", "R", "S", "G", "D", "P"]
  let frames := ["B", "H", "S", "G"]
  let orient := ["1", "2", "3", "4", "5", "6"]
  ["c", "d", "f", "g", "l", "w", "gamma", "lam", "hbb", "lamst", "lcs", "lsp", "lst", "whb", "LhbF", "LhbR",
    "xcl", "zcl", "ds1", "ds3", "d1", "d2", "d3", "d4", "d5", "d6", "h1", "h2", "h3", "h4", "h5", "h6", "h7"] ++
  (["m", "d", "n", "l", "r", "x", "y", "z"].flatMap fun q => parts.map fun p => q ++ p) ++
  (parts.flatMap fun p => ["xx", "yy", "zz", "xy", "xz", "yz"].map fun c => "I" ++ p ++ c) ++
  (["Tc", "Tt"].flatMap fun q => parts.flatMap fun p => orient.map fun i => q ++ p ++ i) ++
  (["a", "alpha"].flatMap fun q => frames.flatMap fun p => orient.map fun i => q ++ p ++ i)

/-- The LaTeX form, or nothing. -/
def latexOf (v : String) : Option Text := (toLatex v).toOption

set_option maxRecDepth 20000 in
/-- **C85.** Every documented name has a LaTeX form, and different names have different ones. -/
theorem C85_documented_names :
    (∀ v ∈ Spec.documentedNames, ∃ l, toLatex v = .ok l) ∧
    ∀ v ∈ Spec.documentedNames, ∀ w ∈ Spec.documentedNames, toLatex v = toLatex w → v = w := by
  have h1 : ∀ v ∈ Spec.documentedNames, (latexOf v).isSome = true := by decide +kernel
  have h2 : (Spec.documentedNames.map latexOf).Nodup := by decide +kernel
  refine ⟨fun v hv => ?_, fun v hv w hw h => ?_⟩
  · have := h1 v hv
    unfold latexOf at this
    cases hv : toLatex v with
    | error e => simp [hv, Except.toOption] at this
    | ok l => exact ⟨l, rfl⟩
  · exact List.inj_on_of_nodup_map h2 hv hw (by unfold latexOf; rw [h])

/-- **C85 (families).** The form of every measurement name with a one letter part and a one
digit orientation. -/
theorem C85_families (p i q : Char) :
    toLatex (String.ofList ['a', 'l', 'p', 'h', 'a', p, i]) =
      .ok (['\\', 'a', 'l', 'p', 'h', 'a', '_', '{', p, i, '}']) ∧
    toLatex (String.ofList ['a', p, i]) = .ok (['a', '_', '{', p, i, '}']) ∧
    toLatex (String.ofList ['T', q, p, i]) = .ok (['T', '^', q, '_', '{', p, i, '}']) ∧
    toLatex (String.ofList ['I', p, q, i]) = .ok (['I', '_', '{', p, q, i, '}']) := by
  have hkeys : ∀ (c : Char) (r : List Char), c ∈ ['a', 'T', 'I'] →
      Dict.find? latexMap (String.ofList (c :: r)) = none := by
    intro c r hc
    rw [Dict.find?_eq_none_iff]
    intro hm
    have h1 : ∀ k ∈ Dict.keys latexMap, ∀ c ∈ ['a', 'T', 'I'], k.toList.head? ≠ some c := by decide +kernel
    exact h1 _ hm c hc (by rw [String.toList_ofList]; rfl)
  refine ⟨?_, ?_, ?_, ?_⟩ <;>
  · unfold toLatex
    rw [hkeys _ _ (by decide)]
    simp [String.toList_ofList, lastTwo, List.isPrefixOf]

/-- **C85 (families).** A name of two characters that is not among the translated ones becomes
its first character with the second as index; the name `T` with one more character is the
exception. -/
theorem C85_two_letter_names (c d : Char) (hT : c ≠ 'T')
    (hm : Dict.find? latexMap (String.ofList [c, d]) = none) :
    toLatex (String.ofList [c, d]) = .ok [c, '_', d] := by
  unfold toLatex
  rw [hm]
  simp [String.toList_ofList, lastTwo, List.isPrefixOf, hT, Ne.symm hT]

/-- for instance the mass of the rear wheel -/
theorem example_two_letters : toLatex (String.ofList ['m', 'R']) = .ok ['m', '_', 'R'] :=
  C85_two_letter_names 'm' 'R' (by decide) (by decide +kernel)

/-- **C85 (what fails).** With ten orientations two names share one form, and the distance has
none: `to_latex` raises KeyError. -/
theorem C85_ten_orientations : toLatex "alphaB10" = toLatex "alphaH10" ∧ toLatex "TtB10" = toLatex "TtH10" ∧
    toLatex "aB10" = .error (.keyError "aB10") := by
  have h : ∀ a b : String, latexOf a = latexOf b → latexOf a ≠ none → toLatex a = toLatex b := by
    intro a b hab hn
    unfold latexOf at hab hn
    cases ha : toLatex a with
    | error e => simp [ha, Except.toOption] at hn
    | ok l =>
      cases hb : toLatex b with
      | error e => simp [ha, hb, Except.toOption] at hab
      | ok l' => simp [ha, hb, Except.toOption] at hab; rw [hab]
  refine ⟨h _ _ (by decide +kernel) (by decide +kernel), h _ _ (by decide +kernel) (by decide +kernel), ?_⟩
  have h2 : Dict.find? latexMap "aB10" = none := by
    rw [Dict.find?_eq_none_iff]; decide +kernel
  have h3 : "aB10".toList = ['a', 'B', '1', '0'] := by decide +kernel
  unfold toLatex
  rw [h2, h3]
  simp [List.isPrefixOf]

end BP
