import Verif.Model.RadiationDebug

/-
C211: the tables written when `output Br and K` is true can be read.
-/

namespace Xdyn.Hdb

variable {K : Type}

/-! ### Specification: reading the text -/

/-- The lines of a text up to the first empty one, each cut at the commas. -/
def readTable (lines : List (List Char)) : List (List (List Char)) := (lines.takeWhile (fun l => !l.isEmpty)).map (·.splitOn ',')

/-- The table under the first title. -/
def firstTable (text : List Char) : List (List (List Char)) := readTable ((text.splitOn '\n').drop 1)

/-- The table under the second title, which follows an empty line. -/
def secondTable (text : List Char) : List (List (List Char)) := readTable ((((text.splitOn '\n').drop 1).dropWhile (fun l => !l.isEmpty)).drop 2)

/-- The field of a table in the line number `r` after the names of the columns, and in the column that has this name. -/
def tableCell (table : List (List (List Char))) (name : String) (r : Nat) : Option (List Char) := do
  let names ← table[0]?
  let line ← table[r + 1]?
  line[names.idxOf name.toList]?

/-! ### Lemmas -/

theorem flatMap_lines (c : Char) : ∀ ls : List (List Char), ls.flatMap (fun l => l ++ [c]) = [c].intercalate (ls ++ [[]])
  | [] => rfl
  | [l] => by simp [List.intercalate, List.intersperse]
  | l :: m :: ls => by
    have ih := flatMap_lines c (m :: ls)
    rw [List.flatMap_cons, ih]
    simp [List.intercalate, List.intersperse]

theorem lines_of_flatMap (ls : List (List Char)) (h : ∀ l ∈ ls, '\n' ∉ l) : (ls.flatMap (fun l => l ++ ['\n'])).splitOn '\n' = ls ++ [[]] := by
  rw [flatMap_lines]
  refine List.splitOn_intercalate '\n' ?_ (by simp)
  intro l hl
  rcases List.mem_append.mp hl with hl | hl
  · exact h l hl
  · simp at hl; simp [hl]

theorem fields_eq {α : Type} (g : α → List Char) : ∀ (a : List Char) (l : List α), a ++ l.flatMap (fun x => ',' :: g x) = [','].intercalate (a :: l.map g)
  | a, [] => by simp [List.intercalate, List.intersperse]
  | a, x :: l => by
    have ih := fields_eq g (g x) l
    rw [List.flatMap_cons, List.cons_append, ih]
    simp [List.intercalate, List.intersperse]

theorem split_fields {α : Type} (g : α → List Char) (a : List Char) (l : List α) (ha : ',' ∉ a) (hl : ∀ x ∈ l, ',' ∉ g x) :
    (a ++ l.flatMap (fun x => ',' :: g x)).splitOn ',' = a :: l.map g := by
  rw [fields_eq]
  refine List.splitOn_intercalate ',' ?_ (by simp)
  intro m hm
  rcases List.mem_cons.mp hm with rfl | hm
  · exact ha
  · obtain ⟨x, hx, rfl⟩ := List.mem_map.mp hm
    exact hl x hx

/-- The names of the columns. -/
def columnName (name : List Char) (p : Fin 6 × Fin 6) : List Char := name ++ '_' :: ((toString (p.1.val + 1)).toList ++ (toString (p.2.val + 1)).toList)

def pairs : List (Fin 6 × Fin 6) := (List.finRange 6).flatMap fun i => (List.finRange 6).map fun j => (i, j)

theorem foldl_add (name : List Char) (f : Fin 6 × Fin 6 → K → K) : ∀ (l : List (Fin 6 × Fin 6)) (w : CsvWriter K),
    l.foldl (fun w p => w.add name (f p) (p.1.val + 1) (p.2.val + 1)) w = { w with functions := w.functions ++ l.map fun p => (columnName name p, f p) }
  | [], w => by simp
  | p :: l, w => by
    rw [List.foldl_cons, foldl_add name f l]
    simp [CsvWriter.add, columnName]

theorem fillWriter_eq (x : List Char) (xs : List K) (name : List Char) (f : Fin 6 → Fin 6 → K → K) :
    fillWriter ⟨x, xs, []⟩ name f = ⟨x, xs, pairs.map fun p => (columnName name p, f p.1 p.2)⟩ := by
  have h := foldl_add name (fun p => f p.1 p.2) pairs ⟨x, xs, []⟩
  rw [List.nil_append] at h
  rw [← h, pairs, List.foldl_flatMap, fillWriter]
  simp only [List.foldl_map]

/-- The lines of a table. -/
def tableLines (fmt : K → List Char) (x : List Char) (xs : List K) (name : List Char) (f : Fin 6 → Fin 6 → K → K) : List (List Char) :=
  (x ++ pairs.flatMap fun p => ',' :: columnName name p) :: xs.map fun v => fmt v ++ pairs.flatMap fun p => ',' :: fmt (f p.1 p.2 v)

theorem print_eq (fmt : K → List Char) (x : List Char) (xs : List K) (name : List Char) (f : Fin 6 → Fin 6 → K → K) :
    (fillWriter ⟨x, xs, []⟩ name f).print fmt = (tableLines fmt x xs name f).flatMap (fun l => l ++ ['\n']) := by
  rw [fillWriter_eq]
  simp only [CsvWriter.print, CsvWriter.title, CsvWriter.values, tableLines, List.flatMap_cons, List.flatMap_map]

theorem pairs_cons : ∃ p l, pairs = p :: l := ⟨(0, 0), pairs.tail, by decide⟩

theorem tableLines_nonempty (fmt : K → List Char) (x : List Char) (xs : List K) (name : List Char) (f : Fin 6 → Fin 6 → K → K) :
    ∀ l ∈ tableLines fmt x xs name f, (!l.isEmpty) = true := by
  obtain ⟨p, r, hp⟩ := pairs_cons
  intro l hl
  rw [tableLines, hp] at hl
  rcases List.mem_cons.mp hl with rfl | hl
  · simp
  · obtain ⟨v, -, rfl⟩ := List.mem_map.mp hl
    simp

theorem digits_plain : ∀ i : Fin 6, ',' ∉ (toString (i.val + 1)).toList ∧ '\n' ∉ (toString (i.val + 1)).toList := by decide

theorem columnName_plain {name : List Char} (hn : ',' ∉ name ∧ '\n' ∉ name) (p : Fin 6 × Fin 6) : ',' ∉ columnName name p ∧ '\n' ∉ columnName name p := by
  obtain ⟨a1, a2⟩ := digits_plain p.1
  obtain ⟨b1, b2⟩ := digits_plain p.2
  constructor
  · intro h
    simp only [columnName, List.mem_append, List.mem_cons] at h
    rcases h with h | h | h | h
    · exact hn.1 h
    · exact absurd h (by decide)
    · exact a1 h
    · exact b1 h
  · intro h
    simp only [columnName, List.mem_append, List.mem_cons] at h
    rcases h with h | h | h | h
    · exact hn.2 h
    · exact absurd h (by decide)
    · exact a2 h
    · exact b2 h

theorem tableLines_plain {fmt : K → List Char} (hf : ∀ v, ',' ∉ fmt v ∧ '\n' ∉ fmt v) {x : List Char} (hx : ',' ∉ x ∧ '\n' ∉ x) (xs : List K) {name : List Char}
    (hn : ',' ∉ name ∧ '\n' ∉ name) (f : Fin 6 → Fin 6 → K → K) : ∀ l ∈ tableLines fmt x xs name f, '\n' ∉ l := by
  intro l hl
  rcases List.mem_cons.mp hl with rfl | hl
  · intro h
    simp only [List.mem_append, List.mem_flatMap, List.mem_cons] at h
    rcases h with h | ⟨p, -, h | h⟩
    · exact hx.2 h
    · exact absurd h (by decide)
    · exact (columnName_plain hn p).2 h
  · obtain ⟨v, -, rfl⟩ := List.mem_map.mp hl
    intro h
    simp only [List.mem_append, List.mem_flatMap, List.mem_cons] at h
    rcases h with h | ⟨p, -, h | h⟩
    · exact (hf v).2 h
    · exact absurd h (by decide)
    · exact (hf _).2 h

theorem tableLines_fields {fmt : K → List Char} (hf : ∀ v, ',' ∉ fmt v ∧ '\n' ∉ fmt v) {x : List Char} (hx : ',' ∉ x ∧ '\n' ∉ x) (xs : List K) {name : List Char}
    (hn : ',' ∉ name ∧ '\n' ∉ name) (f : Fin 6 → Fin 6 → K → K) :
    (tableLines fmt x xs name f).map (·.splitOn ',') = (x :: pairs.map (columnName name)) :: xs.map fun v => fmt v :: pairs.map fun p => fmt (f p.1 p.2 v) := by
  rw [tableLines, List.map_cons, split_fields _ _ _ hx.1 (fun p _ => (columnName_plain hn p).1), List.map_map]
  congr 1
  refine List.map_congr_left fun v _ => ?_
  exact split_fields (fun p : Fin 6 × Fin 6 => fmt (f p.1 p.2 v)) _ _ (hf v).1 (fun p _ => (hf _).1)

theorem text_lines {fmt : K → List Char} (hf : ∀ v, ',' ∉ fmt v ∧ '\n' ∉ fmt v) (omega taus : List K) (Br Ker : Fin 6 → Fin 6 → K → K) :
    (debugText fmt true omega taus Br Ker).splitOn '\n' = "Debugging information for damping functions Br:".toList :: (tableLines fmt "omega".toList omega "Br".toList Br ++
      [] :: "Debugging information for retardation functions K:".toList :: (tableLines fmt "tau".toList taus "K".toList Ker ++ [[]])) := by
  have h := lines_of_flatMap ("Debugging information for damping functions Br:".toList :: (tableLines fmt "omega".toList omega "Br".toList Br ++
      [] :: "Debugging information for retardation functions K:".toList :: tableLines fmt "tau".toList taus "K".toList Ker)) (by
    intro l hl
    rcases List.mem_cons.mp hl with rfl | hl
    · decide
    rcases List.mem_append.mp hl with hl | hl
    · exact tableLines_plain hf (by decide) omega (by decide) Br l hl
    rcases List.mem_cons.mp hl with rfl | hl
    · simp
    rcases List.mem_cons.mp hl with rfl | hl
    · decide
    · exact tableLines_plain hf (by decide) taus (by decide) Ker l hl)
  rw [debugText, if_pos rfl, print_eq, print_eq]
  simp only [List.flatMap_cons, List.flatMap_append, List.cons_append, List.append_assoc, List.nil_append] at h ⊢
  exact h

theorem takeWhile_table (L : List (List Char)) (h : ∀ l ∈ L, (!l.isEmpty) = true) (R : List (List Char)) : (L ++ [] :: R).takeWhile (fun l => !l.isEmpty) = L := by
  rw [List.takeWhile_append_of_pos h]
  simp

theorem dropWhile_table (L : List (List Char)) (h : ∀ l ∈ L, (!l.isEmpty) = true) (R : List (List Char)) : (L ++ [] :: R).dropWhile (fun l => !l.isEmpty) = [] :: R := by
  rw [List.dropWhile_append_of_pos h]
  simp

/-- The cells of a table. -/
theorem tableCell_table {fmt : K → List Char} (x : String) (xs : List K) (name : String) (f : Fin 6 → Fin 6 → K → K) (cols : Fin 6 → Fin 6 → String)
    (hcols : ∀ i j, (x.toList :: pairs.map (columnName name.toList)).idxOf (cols i j).toList = 6 * i.val + j.val + 1) (r : Nat) (v : K) (hr : xs[r]? = some v) :
    tableCell ((x.toList :: pairs.map (columnName name.toList)) :: xs.map fun v => fmt v :: pairs.map fun p => fmt (f p.1 p.2 v)) x r = some (fmt v) ∧
    ∀ i j, tableCell ((x.toList :: pairs.map (columnName name.toList)) :: xs.map fun v => fmt v :: pairs.map fun p => fmt (f p.1 p.2 v)) (cols i j) r = some (fmt (f i j v)) := by
  constructor
  · simp [tableCell, hr]
  · intro i j
    have hp : pairs[6 * i.val + j.val]? = some (i, j) := by
      revert i j; decide
    simp only [tableCell, List.getElem?_cons_zero, List.getElem?_cons_succ, List.getElem?_map, hr, Option.map_some, hcols]
    show (fmt v :: pairs.map fun p => fmt (f p.1 p.2 v))[(x.toList :: pairs.map (columnName name.toList)).idxOf (cols i j).toList]? = _
    rw [hcols, List.getElem?_cons_succ, List.getElem?_map, hp]
    rfl

/-! ### C211 -/

/-- Nothing is written when it is not asked for. -/
theorem no_debug_text (fmt : K → List Char) (omega taus : List K) (Br Ker : Fin 6 → Fin 6 → K → K) : debugText fmt false omega taus Br Ker = [] := rfl

/-- The first table has a line for each angular frequency, with the frequency and the thirty-six damping functions at that frequency in the columns `Br_11` to `Br_66`. -/
theorem damping_table {fmt : K → List Char} (hf : ∀ v, ',' ∉ fmt v ∧ '\n' ∉ fmt v) (omega taus : List K) (Br Ker : Fin 6 → Fin 6 → K → K) :
    (firstTable (debugText fmt true omega taus Br Ker)).length = omega.length + 1 ∧
    ∀ (r : Nat) (v : K), omega[r]? = some v →
      tableCell (firstTable (debugText fmt true omega taus Br Ker)) "omega" r = some (fmt v) ∧
      ∀ i j : Fin 6, tableCell (firstTable (debugText fmt true omega taus Br Ker)) ("Br_" ++ toString (i.val + 1) ++ toString (j.val + 1)) r = some (fmt (Br i j v)) := by
  have h : firstTable (debugText fmt true omega taus Br Ker) =
      ("omega".toList :: pairs.map (columnName "Br".toList)) :: omega.map fun v => fmt v :: pairs.map fun p => fmt (Br p.1 p.2 v) := by
    rw [firstTable, text_lines hf, List.drop_succ_cons, List.drop_zero, readTable, takeWhile_table _ (tableLines_nonempty _ _ _ _ _), tableLines_fields hf (by decide) omega (by decide) Br]
  rw [h]
  refine ⟨by simp, fun r v hr => ?_⟩
  exact tableCell_table "omega" omega "Br" Br (fun i j => "Br_" ++ toString (i.val + 1) ++ toString (j.val + 1)) (by decide +kernel) r v hr

/-- The second table has a line for each delay, with the delay and the thirty-six retardation functions at that delay in the columns `K_11` to `K_66`. -/
theorem retardation_table {fmt : K → List Char} (hf : ∀ v, ',' ∉ fmt v ∧ '\n' ∉ fmt v) (omega taus : List K) (Br Ker : Fin 6 → Fin 6 → K → K) :
    (secondTable (debugText fmt true omega taus Br Ker)).length = taus.length + 1 ∧
    ∀ (r : Nat) (v : K), taus[r]? = some v →
      tableCell (secondTable (debugText fmt true omega taus Br Ker)) "tau" r = some (fmt v) ∧
      ∀ i j : Fin 6, tableCell (secondTable (debugText fmt true omega taus Br Ker)) ("K_" ++ toString (i.val + 1) ++ toString (j.val + 1)) r = some (fmt (Ker i j v)) := by
  have h : secondTable (debugText fmt true omega taus Br Ker) =
      ("tau".toList :: pairs.map (columnName "K".toList)) :: taus.map fun v => fmt v :: pairs.map fun p => fmt (Ker p.1 p.2 v) := by
    rw [secondTable, text_lines hf, List.drop_succ_cons, List.drop_zero, dropWhile_table _ (tableLines_nonempty _ _ _ _ _), List.drop_succ_cons, List.drop_succ_cons, List.drop_zero, readTable,
      takeWhile_table _ (tableLines_nonempty _ _ _ _ _), tableLines_fields hf (by decide) taus (by decide) Ker]
  rw [h]
  refine ⟨by simp, fun r v hr => ?_⟩
  exact tableCell_table "tau" taus "K" Ker (fun i j => "K_" ++ toString (i.val + 1) ++ toString (j.val + 1)) (by decide +kernel) r v hr

section
variable [Field K] [LinearOrder K] [IsStrictOrderedRing K]

/-- An interpolation between increasing abscissae goes through its points (external: the splines of SSC). -/
def GoesThrough (interp : List K → List K → K → K) : Prop :=
  ∀ xs ys, xs.Pairwise (· < ·) → ys.length = xs.length → ∀ (r : Nat) (x y : K), xs[r]? = some x → ys[r]? = some y → interp xs ys x = y

theorem taus_increase {a b : K} {n : Nat} (hn : 2 ≤ n) (h : a < b) : (regularIntervals a b n).Pairwise (· < ·) := by
  unfold regularIntervals
  rw [List.pairwise_map]
  refine List.pairwise_lt_range.imp ?_
  intro i j hij
  have h1 : (0 : K) < (n : K) - 1 := by
    have : (2 : K) ≤ n := by exact_mod_cast hn
    linarith
  have h2 : (i : K) < j := by exact_mod_cast hij
  have h3 : (b - a) * (i : K) / ((n : K) - 1) < (b - a) * (j : K) / ((n : K) - 1) :=
    div_lt_div_of_pos_right (mul_lt_mul_of_pos_left h2 (sub_pos.mpr h)) h1
  linarith

/-- There are such interpolations. -/
example : GoesThrough (fun (xs ys : List ℚ) x => (ys[xs.idxOf x]?).getD 0) := by
  intro xs ys hx _ r x y h1 h2
  have hnd : xs.Nodup := hx.imp (fun h => ne_of_lt h)
  have hr : r < xs.length := (List.getElem?_eq_some_iff.mp h1).1
  have : xs.idxOf x = r := by
    rw [← (List.getElem?_eq_some_iff.mp h1).2]
    exact hnd.idxOf_getElem r hr
  simp only [this, h2, Option.getD_some]

/-- In the force model, with an interpolation that goes through its points, the tables give the coefficients of the HDB file at its frequencies, and the cosine transforms at the delays. -/
theorem tables_of_the_force_model {fmt : K → List Char} (hf : ∀ v, ',' ∉ fmt v ∧ '\n' ∉ fmt v) (interp : List K → List K → K → K)
    (hi : GoesThrough interp) (cosTransform : (K → K) → K → K → K → K) (root : (K → K) → K → K → K) (n : Nat) (hn : 2 ≤ n)
    (y : RadiationYaml K) (hy : y.tauMin < y.tauMax) (omega : List K) (ho : omega.Pairwise (· < ·)) (coeff : Fin 6 → Fin 6 → List K) (hc : ∀ i j, (coeff i j).length = omega.length) (text : List Char)
    (ht : text = debugText fmt true omega (regularIntervals y.tauMin y.tauMax n) (fun i j => interp omega (coeff i j)) (retardation interp cosTransform root n y omega coeff)) (i j : Fin 6) :
    (∀ (r : Nat) (w c : K), omega[r]? = some w → (coeff i j)[r]? = some c →
      tableCell (firstTable text) "omega" r = some (fmt w) ∧ tableCell (firstTable text) ("Br_" ++ toString (i.val + 1) ++ toString (j.val + 1)) r = some (fmt c)) ∧
    (∀ (r : Nat) (tau : K), (regularIntervals y.tauMin y.tauMax n)[r]? = some tau →
      tableCell (secondTable text) "tau" r = some (fmt tau) ∧
      tableCell (secondTable text) ("K_" ++ toString (i.val + 1) ++ toString (j.val + 1)) r =
        some (fmt (cosTransform (interp omega (coeff i j)) (omega.headD 0) (integrationBound root (interp omega (coeff i j)) (omega.headD 0) (omega.getLastD 0) (1 / 1000)) tau))) := by
  subst ht
  constructor
  · intro r w c hw hcr
    obtain ⟨h1, h2⟩ := (damping_table hf omega _ (fun i j => interp omega (coeff i j)) (retardation interp cosTransform root n y omega coeff)).2 r w hw
    exact ⟨h1, by rw [h2, hi _ _ ho (hc i j) r w c hw hcr]⟩
  · intro r tau htau
    obtain ⟨h1, h2⟩ := (retardation_table hf omega _ (fun i j => interp omega (coeff i j)) (retardation interp cosTransform root n y omega coeff)).2 r tau htau
    refine ⟨h1, ?_⟩
    rw [h2, retardation, hi _ _ (taus_increase hn hy) (by simp) r tau _ htau (by rw [List.getElem?_map, htau]; rfl)]

end

/-! ### Examples -/

/-- Two frequencies and two delays, with the digits of the numbers. -/
def sampleText : List Char :=
  debugText (K := Nat) (fun v => (toString v).toList) true [1, 2] [0, 5] (fun i j w => 100 * w + 10 * i.val + j.val) (fun i j t => t * (i.val + j.val))

example : tableCell (firstTable sampleText) "Br_23" 1 = some "212".toList := by decide +kernel

example : tableCell (secondTable sampleText) "K_66" 1 = some "50".toList := by decide +kernel

example : (firstTable sampleText).length = 3 := by decide +kernel

end Xdyn.Hdb
