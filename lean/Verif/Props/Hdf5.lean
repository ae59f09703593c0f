/-
HDF5 output (C192).
-/
import Verif.Spec.Hdf5
import Verif.Props.Tsv
import Mathlib.Tactic.Ring
import Mathlib.Data.List.Pairwise

namespace Xdyn.Hdf5

open Xdyn.Obs

variable {N : Type}

/-! ### Datasets -/

theorem Dataset.ext' {d e : Dataset N} (h : d.dims = e.dims) (h' : ∀ i, d.elem i = e.elem i) : d = e := by
  cases d; cases e
  simp only at h h'
  rw [h, funext h']

theorem getD_append_single (zero : N) (xs : List N) (x : N) (k : Nat) :
    (xs ++ [x]).getD k zero = if xs.length ≤ k ∧ k < xs.length + 1 then x else xs.getD k zero := by
  split
  · have : k = xs.length := by omega
    subst this
    simp
  · rcases Nat.lt_or_ge k xs.length with h | h
    · simp [List.getD, List.getElem?_append_left h]
    · simp only [List.getD]
      rw [List.getElem?_eq_none (by simp; omega), List.getElem?_eq_none (by omega)]

theorem elim_append_single {β : Type} (z : β) (f : Grid N → β) (xs : List (Grid N)) (x : Grid N) (k : Nat) :
    ((xs ++ [x])[k]?).elim z f = if xs.length ≤ k ∧ k < xs.length + 1 then f x else (xs[k]?).elim z f := by
  split
  · have : k = xs.length := by omega
    subst this
    simp
  · rcases Nat.lt_or_ge k xs.length with h | h
    · simp [List.getElem?_append_left h]
    · rw [List.getElem?_eq_none (by simp; omega), List.getElem?_eq_none (by omega)]

theorem column_write (zero : N) (xs : List N) (x : N) :
    (column zero xs).write zero [xs.length + 1] [xs.length] [1] [x] = column zero (xs ++ [x]) := by
  apply Dataset.ext'
  · simp [Dataset.write, column]
  · intro i
    match i with
    | [] => rfl
    | [k] =>
      simp only [Dataset.write, column, slab, getD_append_single]
      by_cases h : xs.length ≤ k ∧ k < xs.length + 1
      · have : k - xs.length = 0 := by omega
        simp [h, this]
      · simp [h]
    | _ :: _ :: _ =>
      simp only [Dataset.write, column, slab]
      split <;> rename_i h
      · split at h <;> simp at h
      · rfl

theorem dates_write (zero : N) (gs : List (Grid N)) (g : Grid N) :
    (dates zero gs).write zero [gs.length + 1] [gs.length] [1] [g.t] = dates zero (gs ++ [g]) := by
  apply Dataset.ext'
  · simp [Dataset.write, dates]
  · intro i
    match i with
    | [] => rfl
    | [k] =>
      simp only [Dataset.write, dates, slab, elim_append_single]
      by_cases h : gs.length ≤ k ∧ k < gs.length + 1
      · have : k - gs.length = 0 := by omega
        simp [h, this]
      · simp [h]
    | _ :: _ :: _ =>
      simp only [Dataset.write, dates, slab]
      split <;> rename_i h
      · split at h <;> simp at h
      · rfl

theorem axes_write (zero : N) (axis : Grid N → List N) (n : Nat) (gs : List (Grid N)) (g : Grid N) (hn : (axis g).length = n) :
    (axes zero axis n gs).write zero [gs.length + 1, n] [gs.length, 0] [1, n] (axis g) = axes zero axis n (gs ++ [g]) := by
  apply Dataset.ext'
  · simp [Dataset.write, axes]
  · intro i
    match i with
    | [] => rfl
    | [k] =>
      simp only [Dataset.write, axes, slab]
      split <;> rename_i h
      · split at h <;> simp at h
      · rfl
    | [k, i] =>
      simp only [Dataset.write, axes, slab, elim_append_single]
      by_cases h : gs.length ≤ k ∧ k < gs.length + 1
      · have : k - gs.length = 0 := by omega
        by_cases hi : i < n
        · simp [h, this, hi]
        · have hk : gs.length ≤ k := h.1
          simp [h, hi, List.getElem?_eq_none (l := axis g) (i := i) (by omega), List.getElem?_eq_none hk]
      · simp [h]
    | _ :: _ :: _ :: _ =>
      simp only [Dataset.write, axes, slab]
      split <;> rename_i h
      · split at h
        · split at h <;> simp at h
        · simp at h
      · rfl

theorem rowMajor_get (zero : N) (m : EigenMatrix N) (i j : Nat) (hi : i < m.rows) (hj : j < m.cols) :
    (m.rowMajor zero).getD (i * m.cols + j) zero = m.get zero i j := by
  have hlt : i * m.cols + j < m.rows * m.cols := by
    calc i * m.cols + j < i * m.cols + m.cols := by omega
      _ = (i + 1) * m.cols := by ring
      _ ≤ m.rows * m.cols := Nat.mul_le_mul_right _ hi
  have h1 : (i * m.cols + j) / m.cols = i := by
    rw [Nat.add_comm, Nat.add_mul_div_right _ _ (by omega), Nat.div_eq_of_lt hj, Nat.zero_add]
  have h2 : (i * m.cols + j) % m.cols = j := by
    rw [Nat.add_comm, Nat.add_mul_mod_self_right, Nat.mod_eq_of_lt hj]
  simp only [EigenMatrix.rowMajor, List.getD, List.getElem?_map, List.getElem?_range hlt, Option.map_some, Option.getD_some, h1, h2]

theorem elevations_write (zero : N) (nx ny : Nat) (gs : List (Grid N)) (g : Grid N) (hr : g.z.rows = nx) (hc : g.z.cols = ny) :
    (elevations zero nx ny gs).write zero [nx, ny, gs.length + 1] [0, 0, gs.length] [nx, ny, 1] (g.z.rowMajor zero) = elevations zero nx ny (gs ++ [g]) := by
  apply Dataset.ext'
  · simp [Dataset.write, elevations]
  · intro i
    match i with
    | [] => rfl
    | [k] =>
      simp only [Dataset.write, elevations, slab]
      split <;> rename_i h
      · split at h <;> simp at h
      · rfl
    | [k, i] =>
      simp only [Dataset.write, elevations, slab]
      split <;> rename_i h
      · split at h
        · split at h <;> simp at h
        · simp at h
      · rfl
    | [i, j, k] =>
      simp only [Dataset.write, elevations, slab, elim_append_single]
      by_cases hij : i < nx ∧ j < ny
      · by_cases h : gs.length ≤ k ∧ k < gs.length + 1
        · have hk : k - gs.length = 0 := by omega
          have := rowMajor_get zero g.z i j (by omega) (by omega)
          simp only [hc] at this
          simp [h, hij, hk, ← this]
        · simp [h, hij]
      · by_cases hi : i < nx
        · have hj : ¬ j < ny := fun hj => hij ⟨hi, hj⟩
          simp [hi, hj]
        · simp [hi]
    | _ :: _ :: _ :: _ :: _ =>
      simp only [Dataset.write, elevations, slab]
      split <;> rename_i h
      · split at h
        · split at h
          · split at h <;> simp at h
          · simp at h
        · simp at h
      · rfl

/-! ### The tree -/

/-- The file holds the datasets `data`, and the groups that lead to them, and nothing else. -/
def Holds (data : Path → Option (Dataset N)) (f : File N) : Prop :=
  f.failed = none ∧
  (∀ p d, f.links p = some (.data d) ↔ data p = some d) ∧
  (∀ q, f.links q = some .group ↔ q ≠ [] ∧ ∃ p, data p ≠ none ∧ q <+: p ∧ q ≠ p)

/-- `q` is a group that has to be created below `done`, on the way to `rest`. -/
def Missing (f : File N) (done rest q : Path) : Prop := f.links q = none ∧ ∃ a b, rest = a ++ b ∧ a ≠ [] ∧ q = done ++ a

theorem missing_cons (f : File N) (done rest q : Path) (x : List Char) (hq : q ≠ done ++ [x]) :
    Missing f done (x :: rest) q ↔ Missing f (done ++ [x]) rest q := by
  constructor
  · rintro ⟨hn, a, b, hab, ha, rfl⟩
    cases a with
    | nil => exact absurd rfl ha
    | cons y a =>
      simp only [List.cons_append, List.cons.injEq] at hab
      obtain ⟨rfl, hab⟩ := hab
      refine ⟨hn, a, b, hab, ?_, by simp⟩
      rintro rfl
      exact hq rfl
  · rintro ⟨hn, a, b, hab, ha, rfl⟩
    exact ⟨hn, x :: a, b, by rw [hab]; rfl, by simp, by simp⟩

/-- The groups created: those that lead to `done ++ rest`. -/
theorem createGroups_spec (f : File N) (rest done : Path) (h : ∀ a b, rest = a ++ b → a ≠ [] → ∀ d, f.links (done ++ a) ≠ some (.data d)) :
    ∃ g, createGroups f done rest = some g ∧ g.datasets = f.datasets ∧ g.waves = f.waves ∧ g.failed = f.failed ∧
      ∀ q, (Missing f done rest q → g.links q = some .group) ∧ (¬ Missing f done rest q → g.links q = f.links q) := by
  induction rest generalizing f done with
  | nil =>
    refine ⟨f, rfl, rfl, rfl, rfl, fun q => ⟨?_, fun _ => rfl⟩⟩
    rintro ⟨_, a, b, hab, ha, _⟩
    simp only [List.nil_eq, List.append_eq_nil_iff] at hab
    exact absurd hab.1 ha
  | cons x rest ih =>
    have hx := h [x] rest rfl (by simp)
    unfold createGroups
    cases hl : f.links (done ++ [x]) with
    | none =>
      simp only
      obtain ⟨g, h1, h2, h3, h4, h5⟩ := ih (f.link (done ++ [x]) .group) (done ++ [x]) (by
        intro a b hab ha d
        have hne : done ++ [x] ++ a ≠ done ++ [x] := by simpa using ha
        simp only [File.link, if_neg hne]
        have := h (x :: a) b (by rw [hab]; rfl) (by simp) d
        simpa using this)
      refine ⟨g, h1, h2, h3, h4, fun q => ?_⟩
      obtain ⟨h6, h7⟩ := h5 q
      by_cases hq : q = done ++ [x]
      · subst hq
        have hm : Missing f done (x :: rest) (done ++ [x]) := ⟨hl, [x], rest, rfl, by simp, rfl⟩
        refine ⟨fun _ => ?_, fun h => absurd hm h⟩
        rw [h7 (fun h => by simp [Missing, File.link] at h)]
        simp [File.link]
      · have he : Missing (f.link (done ++ [x]) .group) (done ++ [x]) rest q ↔ Missing f (done ++ [x]) rest q := by
          simp only [Missing, File.link, if_neg hq]
        rw [he] at h6 h7
        rw [missing_cons f done rest q x hq]
        refine ⟨h6, fun h => ?_⟩
        rw [h7 h]
        simp only [File.link, if_neg hq]
    | some l =>
      cases l with
      | data d => exact absurd hl (hx d)
      | group =>
        simp only
        obtain ⟨g, h1, h2, h3, h4, h5⟩ := ih f (done ++ [x]) (by
          intro a b hab ha d
          have := h (x :: a) b (by rw [hab]; rfl) (by simp) d
          simpa using this)
        refine ⟨g, h1, h2, h3, h4, fun q => ?_⟩
        obtain ⟨h6, h7⟩ := h5 q
        by_cases hq : q = done ++ [x]
        · subst hq
          refine ⟨fun hm => by simp [hm.1] at hl, fun _ => h7 (fun hm => by simp [hm.1] at hl)⟩
        · rw [missing_cons f done rest q x hq]
          exact ⟨h6, h7⟩

theorem dropLast_split {p : Path} {a b : Path} (hab : p.dropLast = a ++ b) (hp : p ≠ []) : a <+: p ∧ a ≠ p := by
  constructor
  · have := List.dropLast_prefix p
    rw [hab] at this
    exact (List.prefix_append a b).trans this
  · rintro rfl
    have := congrArg List.length hab
    have h1 : 0 < a.length := List.length_pos_iff.mpr hp
    simp only [List.length_dropLast, List.length_append] at this
    omega

theorem prefix_dropLast {q p : Path} (h : q <+: p) (hne : q ≠ p) : ∃ b, p.dropLast = q ++ b := by
  obtain ⟨c, rfl⟩ := h
  have hc : c ≠ [] := by rintro rfl; simp at hne
  exact ⟨c.dropLast, by rw [List.dropLast_append_of_ne_nil hc]⟩

/-- A new dataset, away from the other ones. -/
theorem createDataset_holds (data : Path → Option (Dataset N)) (f : File N) (hf : Holds data f) (p : Path) (hp : p ≠ []) (d : Dataset N)
    (ha : ∀ q, data q ≠ none → Apart p q) :
    Holds (Function.update data p (some d)) (createDataset f p d) ∧ (createDataset f p d).datasets = f.datasets ∧ (createDataset f p d).waves = f.waves := by
  obtain ⟨hfail, hdata, hgroup⟩ := hf
  have hnew : f.links p = none := by
    cases h : f.links p with
    | none => rfl
    | some l =>
      cases l with
      | data e =>
        exact absurd (List.prefix_refl p) (ha p (by rw [(hdata p e).mp h]; simp)).1
      | group =>
        obtain ⟨_, q, hq, hpre, _⟩ := (hgroup p).mp h
        exact absurd hpre (ha q hq).1
  obtain ⟨g, h1, h2, h3, h4, h5⟩ := createGroups_spec f p.dropLast [] (by
    intro a b hab hne e he
    rw [List.nil_append] at he
    exact (ha a (by rw [(hdata a e).mp he]; simp)).2 (dropLast_split hab hp).1)
  have hmp : ¬ Missing f [] p.dropLast p := by
    rintro ⟨_, a, b, hab, _, he⟩
    rw [List.nil_append] at he
    subst he
    exact (dropLast_split hab hp).2 rfl
  have hgp : g.links p = none := by rw [(h5 p).2 hmp, hnew]
  have hc : createDataset f p d = g.link p (.data d) := by
    unfold createDataset
    rw [h1]
    simp only [hgp]
  rw [hc]
  have hdp : data p = none := by
    by_contra h
    obtain ⟨e, he⟩ := Option.ne_none_iff_exists'.mp h
    rw [(hdata p e).mpr he] at hnew
    simp at hnew
  refine ⟨⟨by simp [File.link, h4, hfail], ?_, ?_⟩, by simp [File.link, h2], by simp [File.link, h3]⟩
  · intro q e
    by_cases hq : q = p
    · subst hq
      simp [File.link]
    · simp only [File.link, if_neg hq, Function.update_of_ne hq]
      rw [← hdata]
      by_cases hm : Missing f [] p.dropLast q
      · rw [(h5 q).1 hm, hm.1]
        simp
      · rw [(h5 q).2 hm]
  · intro q
    by_cases hq : q = p
    · subst hq
      simp only [File.link, if_pos, Option.some.injEq, reduceCtorEq, false_iff]
      rintro ⟨_, r, hr, hpre, hne⟩
      rw [Function.update_of_ne (Ne.symm hne)] at hr
      exact (ha r hr).1 hpre
    · simp only [File.link, if_neg hq]
      by_cases hm : Missing f [] p.dropLast q
      · rw [(h5 q).1 hm]
        obtain ⟨_, a, b, hab, hne, he⟩ := hm
        rw [List.nil_append] at he
        subst he
        simp only [true_iff]
        exact ⟨hne, p, by simp, (dropLast_split hab hp).1, hq⟩
      · rw [(h5 q).2 hm, hgroup q]
        constructor
        · rintro ⟨h6, r, hr, hpre, hne⟩
          refine ⟨h6, r, ?_, hpre, hne⟩
          by_cases hrp : r = p
          · subst hrp; simp
          · rwa [Function.update_of_ne hrp]
        · rintro ⟨h6, r, hr, hpre, hne⟩
          by_cases hrp : r = p
          · subst hrp
            obtain ⟨b, hb⟩ := prefix_dropLast hpre hne
            rw [← hgroup q]
            cases hl : f.links q with
            | none => exact absurd ⟨hl, q, b, hb, h6, rfl⟩ hm
            | some l =>
              cases l with
              | group => rfl
              | data e => exact absurd hpre (ha q (by rw [(hdata q e).mp hl]; simp)).2
          · rw [Function.update_of_ne hrp] at hr
            exact ⟨h6, r, hr, hpre, hne⟩

/-- A dataset written anew. -/
theorem link_holds (data : Path → Option (Dataset N)) (f : File N) (hf : Holds data f) (p : Path) (d e : Dataset N) (hd : data p = some d) :
    Holds (Function.update data p (some e)) (f.link p (.data e)) := by
  obtain ⟨hfail, hdata, hgroup⟩ := hf
  refine ⟨hfail, ?_, ?_⟩
  · intro q x
    by_cases hq : q = p
    · subst hq; simp [File.link]
    · simp only [File.link, if_neg hq, Function.update_of_ne hq, hdata]
  · intro q
    by_cases hq : q = p
    · subst hq
      simp only [File.link, if_pos, Option.some.injEq, reduceCtorEq, false_iff]
      rintro ⟨h6, r, hr, hpre, hne⟩
      rw [Function.update_of_ne (Ne.symm hne)] at hr
      have := (hgroup q).mpr ⟨h6, r, hr, hpre, hne⟩
      rw [(hdata q d).mpr hd] at this
      simp at this
    · simp only [File.link, if_neg hq, hgroup]
      constructor
      · rintro ⟨h6, r, hr, hpre, hne⟩
        refine ⟨h6, r, ?_, hpre, hne⟩
        by_cases hrp : r = p
        · subst hrp; simp
        · rwa [Function.update_of_ne hrp]
      · rintro ⟨h6, r, hr, hpre, hne⟩
        refine ⟨h6, r, ?_, hpre, hne⟩
        by_cases hrp : r = p
        · subst hrp; simp [hd]
        · rwa [Function.update_of_ne hrp] at hr

/-! ### The actions of the observer -/

/-- The number of a value. -/
def numOf : Val N (Grid N) → Option N
  | .num x => some x
  | .grid _ => none

/-- The grid of a value. -/
def gridOf : Val N (Grid N) → Option (Grid N)
  | .num _ => none
  | .grid g => some g

/-- The datasets of a variable whose values `ws` have been written. -/
def contents (zero : N) (address : List String) (ws : List (Val N (Grid N))) : Shape → List (Path × Dataset N)
  | none => [(path address, column zero (ws.filterMap numOf))]
  | some (nx, ny) =>
    [(wavePath 't', dates zero (ws.filterMap gridOf)), (wavePath 'x', axes zero Grid.x nx (ws.filterMap gridOf)),
     (wavePath 'y', axes zero Grid.y ny (ws.filterMap gridOf)), (wavePath 'z', elevations zero nx ny (ws.filterMap gridOf))]

theorem contents_fst (zero : N) (address : List String) (ws : List (Val N (Grid N))) (s : Shape) : (contents zero address ws s).map Prod.fst = owned address s := by
  cases s <;> rfl

/-- The variables `vs` have been initialized, and the values `W v` of each of them written. -/
def Written (zero : N) (addr : String → List String) (shape : String → Shape) (W : String → List (Val N (Grid N))) (vs : List String) (f : File N) : Prop :=
  ∃ data, Holds data f ∧ f.datasets.Sorted ∧
    (∀ v ∈ vs, ∀ pd ∈ contents zero (addr v) (W v) (shape v), data pd.1 = some pd.2) ∧
    (∀ p, data p ≠ none → ∃ v ∈ vs, p ∈ owned (addr v) (shape v)) ∧
    (∀ v ∈ vs, shape v = none → f.datasets.find v = some (path (addr v))) ∧
    (∀ v ∈ vs, ∀ nx ny, shape v = some (nx, ny) → f.waves = some ⟨((W v).filterMap gridOf).length, nx, ny⟩)

/-- No path of a requested variable goes through another one. -/
def Separate (addr : String → List String) (shape : String → Shape) (req : List String) : Prop :=
  (req.flatMap (fun v => owned (addr v) (shape v))).Pairwise Apart

theorem Apart.symm {p q : Path} (h : Apart p q) : Apart q p := ⟨h.2, h.1⟩

theorem Apart.ne {p q : Path} (h : Apart p q) : p ≠ q := by rintro rfl; exact h.1 (List.prefix_refl p)

theorem Separate.apart {addr : String → List String} {shape : String → Shape} {req : List String} (h : Separate addr shape req) {v w : String} (hv : v ∈ req) (hw : w ∈ req)
    (hvw : v ≠ w) : ∀ p ∈ owned (addr v) (shape v), ∀ q ∈ owned (addr w) (shape w), Apart p q := by
  have h1 := (List.pairwise_flatMap.mp h).2
  have : Std.Symm (fun v w => ∀ p ∈ owned (addr v) (shape v), ∀ q ∈ owned (addr w) (shape w), Apart p q) := ⟨fun _ _ h p hp q hq => (h q hq p hp).symm⟩
  exact h1.forall hv hw hvw

theorem Separate.nodup {addr : String → List String} {shape : String → Shape} {req : List String} (h : Separate addr shape req) : req.Nodup := by
  have h1 := (List.pairwise_flatMap.mp h).2
  refine h1.imp ?_
  intro v w hvw e
  subst e
  cases hs : shape v with
  | none =>
    exact (hvw (path (addr v)) (by simp [hs, owned]) (path (addr v)) (by simp [hs, owned])).ne rfl
  | some s =>
    exact (hvw (wavePath 't') (by simp [hs, owned]) (wavePath 't') (by simp [hs, owned])).ne rfl

theorem wavePath_apart {c d : Char} (h : c ≠ d) : Apart (wavePath c) (wavePath d) := by
  simp only [Apart, wavePath, List.cons_prefix_cons, true_and]
  constructor
  · rintro ⟨h1, _⟩; simp at h1; exact h h1
  · rintro ⟨h1, _⟩; simp at h1; exact h h1.symm

theorem wavePath_ne {c d : Char} (h : c ≠ d) : wavePath c ≠ wavePath d := (wavePath_apart h).ne

/-- Nothing yet. -/
theorem written_empty (zero : N) (addr : String → List String) (shape : String → Shape) (W : String → List (Val N (Grid N))) : Written zero addr shape W [] File.empty := by
  refine ⟨fun _ => none, ⟨rfl, by simp [File.empty], by simp [File.empty]⟩, by simp [File.empty, StdMap.Sorted, StdMap.keys], by simp, by simp, by simp, by simp⟩

/-- One more variable. -/
theorem initializer_written (zero : N) (addr : String → List String) (shape : String → Shape) (req vs : List String) (hsep : Separate addr shape req) (v : String)
    (hv : v ∈ req) (hvs : ∀ w ∈ vs, w ∈ req) (hnew : v ∉ vs) (x : List String × Val N (Grid N)) (hx : x.1 = addr v) (hfit : Fits (shape v) x.2)
    (htok : shape v = none → tokens (join (addr v)) ≠ []) (f : File N) (hf : Written zero addr shape (fun _ => []) vs f) :
    Written zero addr shape (fun _ => []) (v :: vs) ((hdf5 zero).initializer x v f) := by
  obtain ⟨data, hh, hsort, hcont, hown, hds, hwv⟩ := hf
  have hfail : f.failed = none := hh.1
  have hap : ∀ p ∈ owned (addr v) (shape v), ∀ q, data q ≠ none → Apart p q := by
    intro p hp q hq
    obtain ⟨w, hw, hqw⟩ := hown q hq
    exact hsep.apart hv (hvs w hw) (by rintro rfl; exact hnew hw) p hp q hqw
  have hother : ∀ w ∈ vs, ∀ pd ∈ contents zero (addr w) [] (shape w), ∀ p ∈ owned (addr v) (shape v), pd.1 ≠ p := by
    intro w hw pd hpd p hp
    refine (hsep.apart (hvs w hw) hv (by rintro rfl; exact hnew hw) pd.1 ?_ p hp).ne
    rw [← contents_fst zero (addr w) []]
    exact List.mem_map_of_mem hpd
  obtain ⟨a, x⟩ := x
  simp only at hx hfit
  subst hx
  cases hs : shape v with
  | none =>
    cases x with
    | grid g => simp [hs, Fits] at hfit
    | num x =>
      have hp : path (addr v) ∈ owned (addr v) (shape v) := by simp [hs, owned]
      obtain ⟨h1, h2, h3⟩ := createDataset_holds data f hh (path (addr v)) (by simp [path]) ⟨[0], fun _ => zero⟩ (hap _ hp)
      simp only [hdf5, guard, hfail, if_true, initNumber, if_neg (htok hs)]
      refine ⟨_, ⟨h1.1, h1.2⟩, ?_, ?_, ?_, ?_, ?_⟩
      · simp only [h2]; exact StdMap.sorted_set _ _ _ hsort
      · intro w hw pd hpd
        rcases List.mem_cons.mp hw with rfl | hw
        · simp only [hs, contents, List.mem_singleton] at hpd
          subst hpd
          simp only [Function.update_self, Option.some.injEq]
          apply Dataset.ext'
          · rfl
          · intro i
            simp only [column, List.filterMap_nil]
            split <;> simp
        · rw [Function.update_of_ne (hother w hw pd hpd _ hp)]
          exact hcont w hw pd hpd
      · intro p hne
        by_cases hpp : p = path (addr v)
        · exact ⟨v, by simp, hpp ▸ hp⟩
        · rw [Function.update_of_ne hpp] at hne
          obtain ⟨w, hw, h⟩ := hown p hne
          exact ⟨w, List.mem_cons_of_mem _ hw, h⟩
      · intro w hw hsw
        simp only [h2, StdMap.find_set _ _ _ _ hsort]
        rcases List.mem_cons.mp hw with rfl | hw
        · simp
        · rw [if_neg (fun e : w = v => hnew (e ▸ hw))]
          exact hds w hw hsw
      · intro w hw nx ny hsw
        simp only [h3]
        rcases List.mem_cons.mp hw with rfl | hw
        · rw [hs] at hsw; simp at hsw
        · exact hwv w hw nx ny hsw
  | some s =>
    obtain ⟨nx, ny⟩ := s
    cases x with
    | num x => simp [hs, Fits] at hfit
    | grid g =>
      simp only [hs, Fits] at hfit
      obtain ⟨hx, hy, _, _⟩ := hfit
      have hpt : wavePath 't' ∈ owned (addr v) (shape v) := by simp [hs, owned]
      have hpx : wavePath 'x' ∈ owned (addr v) (shape v) := by simp [hs, owned]
      have hpy : wavePath 'y' ∈ owned (addr v) (shape v) := by simp [hs, owned]
      have hpz : wavePath 'z' ∈ owned (addr v) (shape v) := by simp [hs, owned]
      have hne : ∀ c, wavePath c ≠ [] := by intro c; simp [wavePath]
      have step : ∀ (data : Path → Option (Dataset N)) (p q : Path) (d : Dataset N), Apart p q → (∀ r, data r ≠ none → Apart p r) →
          ∀ r, Function.update data q (some d) r ≠ none → Apart p r := by
        intro data p q d hpq h r hr
        by_cases hrq : r = q
        · subst hrq; exact hpq
        · rw [Function.update_of_ne hrq] at hr; exact h r hr
      have atx := wavePath_apart (c := 'x') (d := 't') (by decide)
      have aty := wavePath_apart (c := 'y') (d := 't') (by decide)
      have atz := wavePath_apart (c := 'z') (d := 't') (by decide)
      have axy := wavePath_apart (c := 'y') (d := 'x') (by decide)
      have axz := wavePath_apart (c := 'z') (d := 'x') (by decide)
      have ayz := wavePath_apart (c := 'z') (d := 'y') (by decide)
      obtain ⟨t1, t2, t3⟩ := createDataset_holds data f hh (wavePath 't') (hne _) ⟨[1], fun _ => zero⟩ (hap _ hpt)
      obtain ⟨x1, x2, x3⟩ := createDataset_holds _ _ t1 (wavePath 'x') (hne _) ⟨[1, nx], fun _ => zero⟩ (step _ _ _ _ atx (hap _ hpx))
      obtain ⟨y1, y2, y3⟩ := createDataset_holds _ _ x1 (wavePath 'y') (hne _) ⟨[1, ny], fun _ => zero⟩ (step _ _ _ _ axy (step _ _ _ _ aty (hap _ hpy)))
      obtain ⟨z1, z2, z3⟩ := createDataset_holds _ _ y1 (wavePath 'z') (hne _) ⟨[nx, ny, 1], fun _ => zero⟩
        (step _ _ _ _ ayz (step _ _ _ _ axz (step _ _ _ _ atz (hap _ hpz))))
      simp only [hdf5, guard, hfail, if_true, initGrid, hx, hy, t1.1, x1.1, y1.1]
      refine ⟨_, ⟨z1.1, z1.2⟩, ?_, ?_, ?_, ?_, ?_⟩
      · simp only [z2, y2, x2, t2]; exact hsort
      · intro w hw pd hpd
        rcases List.mem_cons.mp hw with rfl | hw
        · simp only [hs, contents, List.mem_cons, List.not_mem_nil, or_false] at hpd
          rcases hpd with rfl | rfl | rfl | rfl
          · rw [Function.update_of_ne atz.symm.ne, Function.update_of_ne aty.symm.ne, Function.update_of_ne atx.symm.ne, Function.update_self, Option.some.injEq]
            apply Dataset.ext'
            · rfl
            · intro i; simp only [dates, List.filterMap_nil]; split <;> simp
          · rw [Function.update_of_ne axz.symm.ne, Function.update_of_ne axy.symm.ne, Function.update_self, Option.some.injEq]
            apply Dataset.ext'
            · rfl
            · intro i; simp only [axes, List.filterMap_nil]; split <;> simp
          · rw [Function.update_of_ne ayz.symm.ne, Function.update_self, Option.some.injEq]
            apply Dataset.ext'
            · rfl
            · intro i; simp only [axes, List.filterMap_nil]; split <;> simp
          · rw [Function.update_self, Option.some.injEq]
            apply Dataset.ext'
            · rfl
            · intro i; simp only [elevations, List.filterMap_nil]; split <;> simp
        · rw [Function.update_of_ne (hother w hw pd hpd _ hpz), Function.update_of_ne (hother w hw pd hpd _ hpy), Function.update_of_ne (hother w hw pd hpd _ hpx),
            Function.update_of_ne (hother w hw pd hpd _ hpt)]
          exact hcont w hw pd hpd
      · intro p hnp
        by_cases hz : p = wavePath 'z'
        · exact ⟨v, by simp, hz ▸ hpz⟩
        rw [Function.update_of_ne hz] at hnp
        by_cases hy : p = wavePath 'y'
        · exact ⟨v, by simp, hy ▸ hpy⟩
        rw [Function.update_of_ne hy] at hnp
        by_cases hx : p = wavePath 'x'
        · exact ⟨v, by simp, hx ▸ hpx⟩
        rw [Function.update_of_ne hx] at hnp
        by_cases ht : p = wavePath 't'
        · exact ⟨v, by simp, ht ▸ hpt⟩
        rw [Function.update_of_ne ht] at hnp
        obtain ⟨w, hw, h⟩ := hown p hnp
        exact ⟨w, List.mem_cons_of_mem _ hw, h⟩
      · intro w hw hsw
        simp only [z2, y2, x2, t2]
        rcases List.mem_cons.mp hw with rfl | hw
        · rw [hs] at hsw; simp at hsw
        · exact hds w hw hsw
      · intro w hw mx my hsw
        rcases List.mem_cons.mp hw with rfl | hw
        · rw [hs] at hsw
          simp only [Option.some.injEq, Prod.mk.injEq] at hsw
          simp [hsw.1, hsw.2]
        · exfalso
          refine (hsep.apart (hvs w hw) hv (fun e => hnew (e ▸ hw)) (wavePath 't') ?_ _ hpt).ne rfl
          simp [hsw, owned]

/-- One more value of the variable `v`. -/
theorem serializer_written (zero : N) (addr : String → List String) (shape : String → Shape) (req : List String) (hsep : Separate addr shape req) (v : String)
    (hv : v ∈ req) (x : List String × Val N (Grid N)) (hfit : Fits (shape v) x.2) (W : String → List (Val N (Grid N))) (f : File N)
    (hf : Written zero addr shape W req f) :
    Written zero addr shape (Function.update W v (W v ++ [x.2])) req ((hdf5 zero).serializer x v f) := by
  obtain ⟨data, hh, hsort, hcont, hown, hds, hwv⟩ := hf
  have hfail : f.failed = none := hh.1
  have hother : ∀ w ∈ req, w ≠ v → ∀ ws, ∀ pd ∈ contents zero (addr w) ws (shape w), ∀ p ∈ owned (addr v) (shape v), pd.1 ≠ p := by
    intro w hw hwv ws pd hpd p hp
    refine (hsep.apart hw hv hwv pd.1 ?_ p hp).ne
    rw [← contents_fst zero (addr w) ws]
    exact List.mem_map_of_mem hpd
  obtain ⟨a, x⟩ := x
  simp only at hfit
  cases hs : shape v with
  | none =>
    cases x with
    | grid g => simp [hs, Fits] at hfit
    | num x =>
      have hp : path (addr v) ∈ owned (addr v) (shape v) := by simp [hs, owned]
      have hd := hcont v hv (path (addr v), column zero ((W v).filterMap numOf)) (by simp [hs, contents])
      simp only at hd
      have hl := (hh.2.1 _ _).mpr hd
      have h1 := link_holds data f hh (path (addr v)) _ ((column zero ((W v).filterMap numOf)).write zero [((W v).filterMap numOf).length + 1] [((W v).filterMap numOf).length] [1] [x]) hd
      rw [column_write] at h1
      simp only [hdf5, guard, hfail, if_true, writeNumber, hds v hv hs, hl]
      have hdim : (column zero ((W v).filterMap numOf)).dims = [((W v).filterMap numOf).length] := rfl
      simp only [hdim, column_write]
      refine ⟨_, h1, hsort, ?_, ?_, hds, ?_⟩
      · intro w hw pd hpd
        by_cases hwv : w = v
        · subst hwv
          simp only [hs, contents, Function.update_self, List.filterMap_append, List.filterMap_cons, numOf, List.filterMap_nil, List.mem_singleton] at hpd
          subst hpd
          simp
        · rw [Function.update_of_ne hwv] at hpd
          rw [Function.update_of_ne (hother w hw hwv _ pd hpd _ hp)]
          exact hcont w hw pd hpd
      · intro p hne
        by_cases hpp : p = path (addr v)
        · exact ⟨v, hv, hpp ▸ hp⟩
        · rw [Function.update_of_ne hpp] at hne
          exact hown p hne
      · intro w hw nx ny hsw
        have hwv' : w ≠ v := by rintro rfl; rw [hs] at hsw; simp at hsw
        rw [Function.update_of_ne hwv']
        exact hwv w hw nx ny hsw
  | some s =>
    obtain ⟨nx, ny⟩ := s
    cases x with
    | num x => simp [hs, Fits] at hfit
    | grid g =>
      simp only [hs, Fits] at hfit
      obtain ⟨hx, hy, hr, hc⟩ := hfit
      have hpt : wavePath 't' ∈ owned (addr v) (shape v) := by simp [hs, owned]
      have hpx : wavePath 'x' ∈ owned (addr v) (shape v) := by simp [hs, owned]
      have hpy : wavePath 'y' ∈ owned (addr v) (shape v) := by simp [hs, owned]
      have hpz : wavePath 'z' ∈ owned (addr v) (shape v) := by simp [hs, owned]
      have atx := wavePath_ne (c := 'x') (d := 't') (by decide)
      have aty := wavePath_ne (c := 'y') (d := 't') (by decide)
      have atz := wavePath_ne (c := 'z') (d := 't') (by decide)
      have axy := wavePath_ne (c := 'y') (d := 'x') (by decide)
      have axz := wavePath_ne (c := 'z') (d := 'x') (by decide)
      have ayz := wavePath_ne (c := 'z') (d := 'y') (by decide)
      have hw := hwv v hv nx ny hs
      generalize hgs : (W v).filterMap gridOf = gs at hw
      have hcv := hcont v hv
      simp only [hs, contents, hgs, List.mem_cons, List.not_mem_nil, or_false, forall_eq_or_imp, forall_eq] at hcv
      obtain ⟨dt, dx, dy, dz⟩ := hcv
      have wr : ∀ (data : Path → Option (Dataset N)) (f : File N), Holds data f → ∀ (p : Path) (d : Dataset N), data p = some d → ∀ (size offset count : List Nat) (buffer : List N),
          Holds (Function.update data p (some (d.write zero size offset count buffer))) (writeIn zero p size offset count buffer f) ∧
          (writeIn zero p size offset count buffer f).datasets = f.datasets := by
        intro data f hh p d hd size offset count buffer
        have hl := (hh.2.1 p d).mpr hd
        unfold writeIn
        simp only [hl]
        exact ⟨link_holds data f hh p d _ hd, rfl⟩
      obtain ⟨t1, t2⟩ := wr data f hh (wavePath 't') _ dt [gs.length + 1] [gs.length] [1] [g.t]
      obtain ⟨x1, x2⟩ := wr _ _ t1 (wavePath 'x') _ (by rw [Function.update_of_ne atx]; exact dx) [gs.length + 1, nx] [gs.length, 0] [1, nx] g.x
      obtain ⟨y1, y2⟩ := wr _ _ x1 (wavePath 'y') _ (by rw [Function.update_of_ne axy, Function.update_of_ne aty]; exact dy) [gs.length + 1, ny] [gs.length, 0] [1, ny] g.y
      obtain ⟨z1, z2⟩ := wr _ _ y1 (wavePath 'z') _ (by rw [Function.update_of_ne ayz, Function.update_of_ne axz, Function.update_of_ne atz]; exact dz)
        [nx, ny, gs.length + 1] [0, 0, gs.length] [nx, ny, 1] (g.z.rowMajor zero)
      rw [dates_write, axes_write zero Grid.x nx gs g hx, axes_write zero Grid.y ny gs g hy, elevations_write zero nx ny gs g hr hc] at z1
      simp only [hdf5, guard, hfail, if_true, writeGrid, hw, hx, hy, hr, hc, and_self]
      refine ⟨_, ⟨z1.1, z1.2⟩, ?_, ?_, ?_, ?_, ?_⟩
      · simp only [z2, y2, x2, t2]; exact hsort
      · intro w hw pd hpd
        by_cases hwv : w = v
        · subst hwv
          simp only [hs, contents, Function.update_self, List.filterMap_append, List.filterMap_cons, gridOf, List.filterMap_nil, hgs, List.mem_cons, List.not_mem_nil, or_false] at hpd
          rcases hpd with rfl | rfl | rfl | rfl
          · rw [Function.update_of_ne atz.symm, Function.update_of_ne aty.symm, Function.update_of_ne atx.symm, Function.update_self]
          · rw [Function.update_of_ne axz.symm, Function.update_of_ne axy.symm, Function.update_self]
          · rw [Function.update_of_ne ayz.symm, Function.update_self]
          · rw [Function.update_self]
        · rw [Function.update_of_ne hwv] at hpd
          rw [Function.update_of_ne (hother w hw hwv _ pd hpd _ hpz), Function.update_of_ne (hother w hw hwv _ pd hpd _ hpy),
            Function.update_of_ne (hother w hw hwv _ pd hpd _ hpx), Function.update_of_ne (hother w hw hwv _ pd hpd _ hpt)]
          exact hcont w hw pd hpd
      · intro p hnp
        by_cases hz : p = wavePath 'z'
        · exact ⟨v, hv, hz ▸ hpz⟩
        rw [Function.update_of_ne hz] at hnp
        by_cases hy : p = wavePath 'y'
        · exact ⟨v, hv, hy ▸ hpy⟩
        rw [Function.update_of_ne hy] at hnp
        by_cases hx : p = wavePath 'x'
        · exact ⟨v, hv, hx ▸ hpx⟩
        rw [Function.update_of_ne hx] at hnp
        by_cases ht : p = wavePath 't'
        · exact ⟨v, hv, ht ▸ hpt⟩
        rw [Function.update_of_ne ht] at hnp
        exact hown p hnp
      · simp only [z2, y2, x2, t2]
        exact hds
      · intro w hw mx my hsw
        by_cases hwv' : w = v
        · subst hwv'
          rw [hs] at hsw
          simp only [Option.some.injEq, Prod.mk.injEq] at hsw
          simp [hsw.1, hsw.2, Function.update_self, List.filterMap_append, gridOf, hgs]
        · exfalso
          refine (hsep.apart hw hv hwv' (wavePath 't') ?_ _ hpt).ne rfl
          simp [hsw, owned]

/-! ### Runs -/

theorem perform_intersperse {σ : Type} (l : List (σ → σ)) (s : σ) : perform (l.intersperse (fun s => s)) s = perform l s := by
  induction l generalizing s with
  | nil => rfl
  | cons a l ih =>
    cases l with
    | nil => rfl
    | cons b l =>
      rw [List.intersperse_cons_cons]
      exact ih (a s)

theorem perform_cons {σ : Type} (a : σ → σ) (l : List (σ → σ)) (s : σ) : perform (a :: l) s = perform l (a s) := rfl

theorem initialize_all (zero : N) (addr : String → List String) (shape : String → Shape) (req : List String) (hsep : Separate addr shape req)
    (htok : ∀ v ∈ req, shape v = none → tokens (join (addr v)) ≠ []) (val : String → List String × Val N (Grid N))
    (hval : ∀ v ∈ req, (val v).1 = addr v ∧ Fits (shape v) (val v).2) :
    ∀ (rest done : List String), rest.Nodup → (∀ v ∈ rest, v ∈ req ∧ v ∉ done) → (∀ v ∈ done, v ∈ req) → ∀ f, Written zero addr shape (fun _ => []) done f →
      Written zero addr shape (fun _ => []) (rest.reverse ++ done) (perform (rest.map (fun v => (hdf5 zero).initializer (val v) v)) f)
  | [], _, _, _, _, f, hf => by simpa [perform] using hf
  | v :: rest, done, hnd, hr, hd, f, hf => by
    obtain ⟨hv, hnv⟩ := hr v (by simp)
    have hnd' := List.nodup_cons.mp hnd
    have h := initializer_written zero addr shape req done hsep v hv hd hnv (val v) (hval v hv).1 (hval v hv).2 (htok v hv) f hf
    have := initialize_all zero addr shape req hsep htok val hval rest (v :: done) hnd'.2
      (by
        intro w hw
        refine ⟨(hr w (List.mem_cons_of_mem _ hw)).1, ?_⟩
        intro h
        rcases List.mem_cons.mp h with rfl | h
        · exact hnd'.1 hw
        · exact (hr w (List.mem_cons_of_mem _ hw)).2 h)
      (by
        intro w hw
        rcases List.mem_cons.mp hw with rfl | hw
        · exact hv
        · exact hd w hw) _ h
    rw [List.map_cons, perform_cons, List.reverse_cons, List.append_assoc]
    exact this

theorem written_perm (zero : N) (addr : String → List String) (shape : String → Shape) (W W' : String → List (Val N (Grid N))) (vs vs' : List String)
    (h : ∀ v, v ∈ vs' ↔ v ∈ vs) (hW : ∀ v ∈ vs, W' v = W v) (f : File N) (hf : Written zero addr shape W vs f) : Written zero addr shape W' vs' f := by
  obtain ⟨data, hh, hsort, hcont, hown, hds, hwv⟩ := hf
  refine ⟨data, hh, hsort, ?_, ?_, ?_, ?_⟩
  · intro v hv
    rw [hW v ((h v).mp hv)]
    exact hcont v ((h v).mp hv)
  · intro p hp
    obtain ⟨v, hv, h'⟩ := hown p hp
    exact ⟨v, (h v).mpr hv, h'⟩
  · intro v hv
    exact hds v ((h v).mp hv)
  · intro v hv
    rw [hW v ((h v).mp hv)]
    exact hwv v ((h v).mp hv)

/-- One line of values. -/
theorem row_written (zero : N) (addr : String → List String) (shape : String → Shape) (req : List String) (hsep : Separate addr shape req)
    (val : String → List String × Val N (Grid N)) (hval : ∀ v ∈ req, Fits (shape v) (val v).2) :
    ∀ (rest : List String), rest.Nodup → (∀ v ∈ rest, v ∈ req) → ∀ W f, Written zero addr shape W req f →
      Written zero addr shape (fun v => if v ∈ rest then W v ++ [(val v).2] else W v) req (perform (rest.map (fun v => (hdf5 zero).serializer (val v) v)) f)
  | [], _, _, W, f, hf => by simpa [perform] using hf
  | v :: rest, hnd, hr, W, f, hf => by
    have hnd' := List.nodup_cons.mp hnd
    have h := serializer_written zero addr shape req hsep v (hr v (by simp)) (val v) (hval v (hr v (by simp))) W f hf
    have := row_written zero addr shape req hsep val hval rest hnd'.2 (fun w hw => hr w (List.mem_cons_of_mem _ hw)) _ _ h
    rw [List.map_cons, perform_cons]
    refine written_perm zero addr shape _ _ req req (fun _ => Iff.rfl) ?_ _ this
    intro w _
    by_cases hw : w = v
    · subst hw
      simp [hnd'.1]
    · simp [hw, Function.update_of_ne hw]

/-- The lines of values. -/
theorem rows_written (zero : N) (addr : String → List String) (shape : String → Shape) (req : List String) (hsep : Separate addr shape req) :
    ∀ (V : List (String → List String × Val N (Grid N))), (∀ val ∈ V, ∀ v ∈ req, Fits (shape v) (val v).2) → ∀ W f, Written zero addr shape W req f →
      Written zero addr shape (fun v => W v ++ V.map (fun val => (val v).2)) req
        (perform (V.flatMap (fun val => [(hdf5 zero).beforeWrite] ++ (req.map (fun v => (hdf5 zero).serializer (val v) v)).intersperse (hdf5 zero).flushValueDuringWrite ++
          [(hdf5 zero).flushAfterWrite])) f)
  | [], _, W, f, hf => by simpa [perform] using hf
  | val :: V, hval, W, f, hf => by
    have h := row_written zero addr shape req hsep val (hval val (by simp)) req hsep.nodup (fun _ h => h) W f hf
    have := rows_written zero addr shape req hsep V (fun x hx => hval x (List.mem_cons_of_mem _ hx)) _ _ h
    rw [List.flatMap_cons, perform_append, perform_append, perform_append]
    have e1 : perform [(hdf5 zero).beforeWrite] f = f := rfl
    have e2 : ∀ g, perform [(hdf5 zero).flushAfterWrite] g = g := fun _ => rfl
    rw [e1, e2]
    have e3 : (hdf5 zero).flushValueDuringWrite = fun s : File N => s := rfl
    rw [e3] at this ⊢
    rw [perform_intersperse]
    refine written_perm zero addr shape _ _ req req (fun _ => Iff.rfl) ?_ _ this
    intro w hw
    simp [hw]

theorem all_numbers : ∀ ws : List (Val N (Grid N)), (∀ w ∈ ws, Fits none w) → ∃ xs : List N, ws = xs.map Val.num
  | [], _ => ⟨[], rfl⟩
  | w :: ws, h => by
    obtain ⟨xs, rfl⟩ := all_numbers ws (fun w hw => h w (List.mem_cons_of_mem _ hw))
    cases w with
    | num x => exact ⟨x :: xs, rfl⟩
    | grid g => exact (h (.grid g) (by simp)).elim

theorem all_grids (nx ny : Nat) : ∀ ws : List (Val N (Grid N)), (∀ w ∈ ws, Fits (some (nx, ny)) w) → ∃ gs : List (Grid N), ws = gs.map Val.grid
  | [], _ => ⟨[], rfl⟩
  | w :: ws, h => by
    obtain ⟨gs, rfl⟩ := all_grids nx ny ws (fun w hw => h w (List.mem_cons_of_mem _ hw))
    cases w with
    | grid g => exact ⟨g :: gs, rfl⟩
    | num x => exact (h (.num x) (by simp)).elim

theorem numbers_of (xs : List N) : (xs.map (Val.num (G := Grid N))).filterMap numOf = xs := by
  induction xs with
  | nil => rfl
  | cons x xs ih => simp [numOf, ih]

theorem grids_of (gs : List (Grid N)) : (gs.map (Val.grid (N := N))).filterMap gridOf = gs := by
  induction gs with
  | nil => rfl
  | cons x xs ih => simp [gridOf, ih]

/-- **C192** When the requested variables are available in the first observation, keep their address and their shape, and when no path of a dataset goes through another one:
the run does not fail, and in the file
* each number has one dataset, at its address, with one element per observation, which is the value of the variable in this observation,
* the grid has its four datasets below "/outputs/waves": the date, abscissae, ordinates and elevations of each observation,
* there is no other dataset, and the groups are those that lead to the datasets. -/
theorem hdf5_file (zero : N) (addr : String → List String) (shape : String → Shape) (req : List String) (hsep : Separate addr shape req)
    (htok : ∀ v ∈ req, shape v = none → tokens (join (addr v)) ≠ [])
    (ob : (List String × Val N (Grid N)) × List (String × (List String × Val N (Grid N)))) (l : List ((List String × Val N (Grid N)) × List (String × (List String × Val N (Grid N)))))
    (hall : ∀ v ∈ req, v ∈ (writesOf ob).map Prod.fst)
    (hfit : ∀ o ∈ ob :: l, ∀ p ∈ writesOf o, p.1 ∈ req → p.2.1 = addr p.1 ∧ Fits (shape p.1) p.2.2) :
    ∃ file, hdf5Run zero req (ob :: l) = .ok file ∧
      (∀ v ∈ req, shape v = none → ∃ xs : List N, xs.length = (ob :: l).length ∧
        (∀ (k : Nat) (x : N), xs[k]? = some x → latest (((ob :: l).take (k + 1)).flatMap writesOf) v = some (addr v, .num x)) ∧
        file (path (addr v)) = some (.data (column zero xs))) ∧
      (∀ v ∈ req, ∀ nx ny, shape v = some (nx, ny) → ∃ gs : List (Grid N), gs.length = (ob :: l).length ∧
        (∀ (k : Nat) (g : Grid N), gs[k]? = some g → latest (((ob :: l).take (k + 1)).flatMap writesOf) v = some (addr v, .grid g)) ∧
        file (wavePath 't') = some (.data (dates zero gs)) ∧ file (wavePath 'x') = some (.data (axes zero Grid.x nx gs)) ∧
        file (wavePath 'y') = some (.data (axes zero Grid.y ny gs)) ∧ file (wavePath 'z') = some (.data (elevations zero nx ny gs))) ∧
      (∀ p d, file p = some (.data d) → ∃ v ∈ req, p ∈ owned (addr v) (shape v)) ∧
      (∀ p, file p = some .group ↔ p ≠ [] ∧ ∃ v ∈ req, ∃ q ∈ owned (addr v) (shape v), p <+: q ∧ p ≠ q) := by
  let d : List String × Val N (Grid N) := ([], .num zero)
  let V := valuations d [] (ob :: l)
  have hV : V.length = (ob :: l).length := valuations_length _ _ _
  -- the values
  have hval : ∀ (i : Nat) (val : String → List String × Val N (Grid N)), V[i]? = some val → ∀ v ∈ req,
      latest (((ob :: l).take (i + 1)).flatMap writesOf) v = some (val v) ∧ (val v).1 = addr v ∧ Fits (shape v) (val v).2 := by
    intro i val hi v hv
    have hlt : i < (ob :: l).length := by rw [← hV]; exact (List.getElem?_eq_some_iff.mp hi).1
    have hg := valuations_get d (ob :: l) [] i hlt
    rw [hi, Option.some.injEq] at hg
    have hm : v ∈ (((ob :: l).take (i + 1)).flatMap writesOf).map Prod.fst := by
      rw [List.take_succ_cons, List.flatMap_cons, List.map_append]
      exact List.mem_append_left _ (hall v hv)
    obtain ⟨x, hx⟩ := Option.isSome_iff_exists.mp ((latest_isSome _ _).mpr hm)
    obtain ⟨o, ho, hpo⟩ := List.mem_flatMap.mp (latest_mem hx)
    have hy := hfit o (List.mem_of_mem_take ho) _ hpo hv
    have he : val v = x := by rw [hg]; simp only [List.nil_append, hx, Option.getD_some]
    rw [he]
    exact ⟨hx, hy⟩
  have hfirst : ∀ v ∈ req, ((latest (writesOf ob) v).getD d).1 = addr v ∧ Fits (shape v) ((latest (writesOf ob) v).getD d).2 := by
    intro v hv
    obtain ⟨x, hx⟩ := Option.isSome_iff_exists.mp ((latest_isSome _ _).mpr (hall v hv))
    rw [hx]
    exact hfit ob (by simp) _ (latest_mem hx) hv
  have hrun := run_all (hdf5 zero) d req File.empty ob l hall
  have hinit := initialize_all zero addr shape req hsep htok (fun v => (latest (writesOf ob) v).getD d) hfirst req [] hsep.nodup (by simp) (by simp) File.empty
    (written_empty zero addr shape _)
  have e3 : (hdf5 zero).flushValueDuringInitialization = fun s : File N => s := rfl
  have e4 : ∀ g : File N, (hdf5 zero).flushAfterInitialization g = g := fun _ => rfl
  rw [e3, perform_intersperse, e4] at hrun
  have hrows := rows_written zero addr shape req hsep V (by
      intro val hm v hv
      obtain ⟨i, hi⟩ := List.mem_iff_getElem?.mp hm
      exact (hval i val hi v hv).2.2) _ _
    (written_perm zero addr shape _ (fun _ => []) _ req (by simp) (by simp) _ hinit)
  generalize hF : perform _ _ = F at hrows
  rw [hF] at hrun
  obtain ⟨data, hh, _, hcont, hown, _, _⟩ := hrows
  have hfile : hdf5Run zero req (ob :: l) = .ok F.links := by
    unfold hdf5Run
    cases ho : (Observer.init req File.empty).observeAll (hdf5 zero) (ob :: l) with
    | error e => rw [ho] at hrun; simp [Except.map] at hrun
    | ok o =>
      rw [ho] at hrun
      simp only [Except.map, Except.ok.injEq] at hrun
      simp only [hrun, hh.1]
  have hfits : ∀ v ∈ req, ∀ w ∈ V.map (fun val => (val v).2), Fits (shape v) w := by
    intro v hv w hw
    obtain ⟨val, hm, rfl⟩ := List.mem_map.mp hw
    obtain ⟨i, hi⟩ := List.mem_iff_getElem?.mp hm
    exact (hval i val hi v hv).2.2
  refine ⟨F.links, hfile, ?_, ?_, ?_, ?_⟩
  · intro v hv hs
    have h1 := hcont v hv (path (addr v), column zero ((V.map (fun val => (val v).2)).filterMap numOf)) (by simp [hs, contents])
    obtain ⟨xs, hxs⟩ := all_numbers (V.map (fun val => (val v).2)) (hs ▸ hfits v hv)
    rw [hxs, numbers_of] at h1
    refine ⟨xs, ?_, ?_, (hh.2.1 _ _).mpr h1⟩
    · have := congrArg List.length hxs
      simpa [hV] using this.symm
    · intro k x hk
      have h2 := congrArg (fun ws => ws[k]?) hxs
      simp only [List.getElem?_map, hk, Option.map_some] at h2
      obtain ⟨val, hvk, h3⟩ := Option.map_eq_some_iff.mp h2
      obtain ⟨h4, h5, _⟩ := hval k val hvk v hv
      rw [h4, ← h5, ← h3]
  · intro v hv nx ny hs
    obtain ⟨gs, hgs⟩ := all_grids nx ny (V.map (fun val => (val v).2)) (hs ▸ hfits v hv)
    have h1 := hcont v hv
    simp only [List.nil_append, hs, contents, hgs, grids_of, List.mem_cons, List.not_mem_nil, or_false, forall_eq_or_imp, forall_eq] at h1
    obtain ⟨ht, hx, hy, hz⟩ := h1
    refine ⟨gs, ?_, ?_, (hh.2.1 _ _).mpr ht, (hh.2.1 _ _).mpr hx, (hh.2.1 _ _).mpr hy, (hh.2.1 _ _).mpr hz⟩
    · have := congrArg List.length hgs
      simpa [hV] using this.symm
    · intro k x hk
      have h2 := congrArg (fun ws => ws[k]?) hgs
      simp only [List.getElem?_map, hk, Option.map_some] at h2
      obtain ⟨val, hvk, h3⟩ := Option.map_eq_some_iff.mp h2
      obtain ⟨h4, h5, _⟩ := hval k val hvk v hv
      rw [h4, ← h5, ← h3]
  · intro p e hp
    exact hown p (by rw [(hh.2.1 p e).mp hp]; simp)
  · intro p
    rw [hh.2.2 p]
    constructor
    · rintro ⟨h1, q, hq, hpre, hne⟩
      obtain ⟨v, hv, h⟩ := hown q hq
      exact ⟨h1, v, hv, q, h, hpre, hne⟩
    · rintro ⟨h1, v, hv, q, hq, hpre, hne⟩
      refine ⟨h1, q, ?_, hpre, hne⟩
      rw [← contents_fst zero (addr v) (V.map (fun val => (val v).2))] at hq
      obtain ⟨pd, hpd, rfl⟩ := List.mem_map.mp hq
      have := hcont v hv pd (by simpa using hpd)
      rw [this]
      simp

/-! ### Paths -/

/-- An address whose names are not empty and hold no "/" leads to the dataset of the same names below "/outputs". -/
theorem path_eq (address : List String) (h0 : address ≠ []) (h : ∀ a ∈ address, a.toList ≠ [] ∧ '/' ∉ a.toList) :
    path address = "outputs".toList :: address.map String.toList := by
  unfold path tokens join
  rw [List.splitOn_intercalate]
  · congr 1
    rw [List.filter_eq_self]
    intro l hl
    obtain ⟨a, ha, rfl⟩ := List.mem_map.mp hl
    simpa using (h a ha).1
  · intro l hl
    obtain ⟨a, ha, rfl⟩ := List.mem_map.mp hl
    exact (h a ha).2
  · simpa using h0

theorem prefix_of_map : ∀ {a b : List String}, a.map String.toList <+: b.map String.toList → a <+: b
  | [], b, _ => List.nil_prefix
  | x :: a, [], h => by simp at h
  | x :: a, y :: b, h => by
    simp only [List.map_cons, List.cons_prefix_cons, String.toList_inj] at h
    rw [List.cons_prefix_cons]
    exact ⟨h.1, prefix_of_map h.2⟩

/-- The paths of two numbers are apart when neither address is the beginning of the other one. -/
theorem paths_apart (a b : List String) (ha0 : a ≠ []) (hb0 : b ≠ []) (ha : ∀ x ∈ a, x.toList ≠ [] ∧ '/' ∉ x.toList) (hb : ∀ x ∈ b, x.toList ≠ [] ∧ '/' ∉ x.toList)
    (hab : ¬ a <+: b) (hba : ¬ b <+: a) : Apart (path a) (path b) := by
  rw [path_eq a ha0 ha, path_eq b hb0 hb]
  refine ⟨fun h => hab (prefix_of_map ?_), fun h => hba (prefix_of_map ?_)⟩
  · exact (List.cons_prefix_cons.mp h).2
  · exact (List.cons_prefix_cons.mp h).2

/-- The attitude and the position of any body: its name has to be usable in a path. -/
example (body : String) (h : body.toList ≠ [] ∧ '/' ∉ body.toList) : Apart (path ["states", body, "X"]) (path ["states", body, "Quat", "Qr"]) :=
  paths_apart _ _ (by simp) (by simp) (by simpa using h) (by simpa using h) (by simp) (by simp)

/-! ### Two variables at the same address -/

/-- The run has failed, or there is something at `p`. -/
def Taken (p : Path) (f : File N) : Prop := f.failed ≠ none ∨ f.links p ≠ none

theorem createGroups_keeps (p : Path) : ∀ (rest done : Path) (f g : File N), createGroups f done rest = some g → g.failed = f.failed ∧ (f.links p ≠ none → g.links p ≠ none)
  | [], _, f, g, h => by
    simp only [createGroups, Option.some.injEq] at h
    subst h
    exact ⟨rfl, id⟩
  | x :: rest, done, f, g, h => by
    unfold createGroups at h
    split at h
    · obtain ⟨h1, h2⟩ := createGroups_keeps p rest _ _ g h
      refine ⟨h1, fun hp => h2 ?_⟩
      simp only [File.link]
      split
      · simp
      · exact hp
    · exact createGroups_keeps p rest _ _ g h
    · simp at h

theorem createDataset_taken (p q : Path) (d : Dataset N) (f : File N) (hf : Taken p f) : Taken p (createDataset f q d) := by
  unfold createDataset
  split
  · left; simp [File.fail]
  · rename_i g hg
    obtain ⟨h1, h2⟩ := createGroups_keeps p _ _ _ _ hg
    split
    · left; simp [File.fail]
    · rcases hf with hf | hf
      · left; simpa [File.link, h1] using hf
      · right
        simp only [File.link]
        split
        · simp
        · exact h2 hf

theorem createDataset_takes (p : Path) (d : Dataset N) (f : File N) : Taken p (createDataset f p d) := by
  unfold createDataset
  split
  · left; simp [File.fail]
  · split
    · left; simp [File.fail]
    · right; simp [File.link]

theorem createDataset_twice (p : Path) (d : Dataset N) (f : File N) (hf : Taken p f) : (createDataset f p d).failed ≠ none := by
  unfold createDataset
  split
  · simp [File.fail]
  · rename_i g hg
    obtain ⟨h1, h2⟩ := createGroups_keeps p _ _ _ _ hg
    split
    · simp [File.fail]
    · rename_i hn
      rcases hf with hf | hf
      · simpa [File.link, h1] using hf
      · exact absurd hn (h2 hf)

theorem initGrid_taken (zero : N) (p : Path) (g : Grid N) (f : File N) (hf : Taken p f) : Taken p (initGrid zero g f) := by
  have key : ∀ (q : Path) (d : Dataset N) (f : File N), Taken p f → Taken p (if f.failed = none then createDataset f q d else f) := by
    intro q d f hf
    split
    · exact createDataset_taken p q d f hf
    · exact hf
  exact key _ _ _ (key _ _ _ (key _ _ _ (createDataset_taken p _ _ _ hf)))

theorem initializer_taken (zero : N) (p : Path) (x : List String × Val N (Grid N)) (v : String) (f : File N) (hf : Taken p f) : Taken p ((hdf5 zero).initializer x v f) := by
  simp only [hdf5, guard]
  split
  · split
    · unfold initNumber
      split
      · left; simp [File.fail]
      · exact createDataset_taken p _ _ _ hf
    · exact initGrid_taken zero p _ f hf
  · exact hf

theorem initializer_failed (zero : N) (x : List String × Val N (Grid N)) (v : String) (f : File N) (hf : f.failed ≠ none) : ((hdf5 zero).initializer x v f).failed ≠ none := by
  simp only [hdf5, guard, if_neg hf]
  exact hf

theorem serializer_failed (zero : N) (x : List String × Val N (Grid N)) (v : String) (f : File N) (hf : f.failed ≠ none) : ((hdf5 zero).serializer x v f).failed ≠ none := by
  simp only [hdf5, guard, if_neg hf]
  exact hf

theorem perform_keeps {σ : Type} (P : σ → Prop) (l : List (σ → σ)) (h : ∀ a ∈ l, ∀ s, P s → P (a s)) (s : σ) (hs : P s) : P (perform l s) := by
  induction l generalizing s with
  | nil => exact hs
  | cons a l ih => exact ih (fun b hb => h b (List.mem_cons_of_mem _ hb)) (a s) (h a (by simp) s hs)

theorem mem_intersperse {α : Type} {a b : α} {l : List α} (h : a ∈ l.intersperse b) : a = b ∨ a ∈ l := by
  induction l with
  | nil => simp at h
  | cons c l ih =>
    cases l with
    | nil => right; simpa using h
    | cons e l =>
      rw [List.intersperse_cons_cons] at h
      rcases List.mem_cons.mp h with rfl | h
      · right; simp
      · rcases List.mem_cons.mp h with rfl | h
        · left; rfl
        · rcases ih h with h | h
          · left; exact h
          · right; exact List.mem_cons_of_mem _ h

/-- **C192 (refuted without the hypothesis on the paths)** If two requested numbers have the same address (in particular if a number is requested twice), the run fails. -/
theorem hdf5_same_address_refuted (zero : N) (as bs cs : List String) (v w : String) (address : List String) (x y : N)
    (ob : (List String × Val N (Grid N)) × List (String × (List String × Val N (Grid N)))) (l : List ((List String × Val N (Grid N)) × List (String × (List String × Val N (Grid N)))))
    (hv : latest (writesOf ob) v = some (address, .num x)) (hw : latest (writesOf ob) w = some (address, .num y)) :
    ∃ e, hdf5Run zero (as ++ v :: bs ++ w :: cs) (ob :: l) = .error e := by
  by_cases hall : ∀ u ∈ as ++ v :: bs ++ w :: cs, u ∈ (writesOf ob).map Prod.fst
  · let d : List String × Val N (Grid N) := ([], .num zero)
    have hrun := run_all (hdf5 zero) d _ File.empty ob l hall
    have e3 : (hdf5 zero).flushValueDuringInitialization = fun s : File N => s := rfl
    have e4 : ∀ g : File N, (hdf5 zero).flushAfterInitialization g = g := fun _ => rfl
    rw [e3, perform_intersperse, e4] at hrun
    have hfail : (perform ((as ++ v :: bs ++ w :: cs).map (fun v => (hdf5 zero).initializer ((latest (writesOf ob) v).getD d) v)) File.empty).failed ≠ none := by
      rw [List.map_append, List.map_append, perform_append, perform_append, List.map_cons, List.map_cons, perform_cons, perform_cons, hv, hw]
      apply perform_keeps (fun f : File N => f.failed ≠ none)
      · intro a ha s hs
        obtain ⟨u, _, rfl⟩ := List.mem_map.mp ha
        exact initializer_failed zero _ _ s hs
      simp only [Option.getD_some]
      have htaken : ∀ f : File N, Taken (path address) ((hdf5 zero).initializer (address, .num x) v f) := by
        intro f
        simp only [hdf5, guard]
        split
        · unfold initNumber
          split
          · left; simp [File.fail]
          · exact createDataset_takes _ _ _
        · left; assumption
      have hmid := perform_keeps (Taken (path address)) (bs.map (fun v => (hdf5 zero).initializer ((latest (writesOf ob) v).getD d) v)) (by
        intro a ha s hs
        obtain ⟨u, _, rfl⟩ := List.mem_map.mp ha
        exact initializer_taken zero _ _ _ s hs) _
        (htaken (perform (as.map (fun v => (hdf5 zero).initializer ((latest (writesOf ob) v).getD d) v)) File.empty))
      generalize perform _ _ = F at hmid
      simp only [hdf5, guard]
      split
      · unfold initNumber
        split
        · simp [File.fail]
        · exact createDataset_twice _ _ _ hmid
      · assumption
    have hend := perform_keeps (fun f : File N => f.failed ≠ none) ((valuations d [] (ob :: l)).flatMap (fun val =>
          [(hdf5 zero).beforeWrite] ++ ((as ++ v :: bs ++ w :: cs).map (fun v => (hdf5 zero).serializer (val v) v)).intersperse (hdf5 zero).flushValueDuringWrite ++ [(hdf5 zero).flushAfterWrite])) (by
        intro a ha s hs
        obtain ⟨val, _, ha⟩ := List.mem_flatMap.mp ha
        simp only [List.mem_append, List.mem_singleton] at ha
        rcases ha with (rfl | ha) | rfl
        · exact hs
        · rcases mem_intersperse ha with rfl | ha
          · exact hs
          · obtain ⟨u, _, rfl⟩ := List.mem_map.mp ha
            exact serializer_failed zero _ _ s hs
        · exact hs) _ hfail
    generalize perform _ _ = F at hrun hend
    unfold hdf5Run
    cases ho : (Observer.init (as ++ v :: bs ++ w :: cs) File.empty).observeAll (hdf5 zero) (ob :: l) with
    | error e => exact ⟨e, rfl⟩
    | ok o =>
      rw [ho] at hrun
      simp only [Except.map, Except.ok.injEq] at hrun
      simp only [hrun]
      obtain ⟨e, he⟩ := Option.ne_none_iff_exists'.mp hend
      exact ⟨.throw e, by rw [he]⟩
  · push Not at hall
    obtain ⟨u, hu, hnot⟩ := hall
    have h := (observeAll_error_iff (hdf5 zero) (as ++ v :: bs ++ w :: cs) File.empty ob l).mpr ⟨u, hu, by
      rintro rfl
      exact hnot (by simp [writesOf]), fun h => hnot (by simp only [writesOf, List.map_cons]; exact List.mem_cons_of_mem _ h)⟩
    unfold hdf5Run
    cases ho : (Observer.init (as ++ v :: bs ++ w :: cs) File.empty).observeAll (hdf5 zero) (ob :: l) with
    | error e => exact ⟨e, rfl⟩
    | ok o => rw [ho] at h; simp at h

theorem gm_ne_gz (body : String) : "GZ(" ++ body ++ ")" ≠ "GM(" ++ body ++ ")" := by
  intro h
  have h' := congrArg String.toList h
  simp only [String.toList_append] at h'
  rw [(by decide : "GZ(".toList = ['G', 'Z', '(']), (by decide : "GM(".toList = ['G', 'M', '('])] at h'
  simp at h'

/-- **C192 (refuted)** The metacentric height and the righting lever of a body, both written by the force model "GM", are written at the same address: an HDF5 output
that asks for both of them, whatever else it asks for, fails (when the observation of the force model comes last; the other outputs accept both). -/
theorem hdf5_gm_gz_refuted (zero : N) (as bs cs : List String) (body model : String) (gm gz : N) (t : List String × Val N (Grid N))
    (outs : List (String × (List String × Val N (Grid N)))) (l : List ((List String × Val N (Grid N)) × List (String × (List String × Val N (Grid N))))) :
    ∃ e, hdf5Run zero (as ++ ("GM(" ++ body ++ ")") :: bs ++ ("GZ(" ++ body ++ ")") :: cs) ((t, outs ++ gmObservations body model gm gz) :: l) = .error e := by
  refine hdf5_same_address_refuted zero as bs cs _ _ ["efforts", body, model, "GM"] gm gz _ l ?_ ?_
  · simp [latest, writesOf, gmObservations, gm_ne_gz]
  · simp [latest, writesOf, gmObservations]

/-! ### A concrete case -/

/-- A grid of 2 times 3 points: `z(i,j) = 10 i + j + t`. -/
def swell (t : ℤ) : Grid ℤ := ⟨t, [0, 100], [0, 5, 7], ⟨2, 3, [t, t + 10, t + 1, t + 11, t + 2, t + 12]⟩⟩

/-- Three observations of the date, of an abscissa and of the waves. -/
def cruise : List ((List String × Val ℤ (Grid ℤ)) × List (String × (List String × Val ℤ (Grid ℤ)))) :=
  [0, 4, 8].map fun t => ((["t"], .num t), [("x(ship)", (["states", "ship", "X"], .num (7 * t))), ("waves", (["waveElevation"], .grid (swell t)))])

instance (s : Shape) (v : Val ℤ (Grid ℤ)) : Decidable (Fits s v) := by
  unfold Fits
  split <;> infer_instance

/-- The addresses of `cruise`. -/
def cruiseAddress (v : String) : List String := if v = "t" then ["t"] else if v = "x(ship)" then ["states", "ship", "X"] else ["waveElevation"]

/-- The shapes of `cruise`. -/
def cruiseShape (v : String) : Shape := if v = "waves" then some (2, 3) else none

example : Separate cruiseAddress cruiseShape ["t", "x(ship)", "waves"] := by
  unfold Separate Apart
  decide +kernel

example : (∀ v ∈ ["t", "x(ship)", "waves"], cruiseShape v = none → tokens (join (cruiseAddress v)) ≠ []) ∧
    (∀ v ∈ ["t", "x(ship)", "waves"], v ∈ (writesOf (cruise.headD ((["t"], .num 0), []))).map Prod.fst) := by
  decide +kernel

example : ∀ o ∈ cruise, ∀ p ∈ writesOf o, p.1 ∈ ["t", "x(ship)", "waves"] → p.2.1 = cruiseAddress p.1 ∧ Fits (cruiseShape p.1) p.2.2 := by
  decide +kernel

/-- The element `idx` of the dataset `p`. -/
def at? (r : Except Err (Path → Option (Link ℤ))) (p : Path) (idx : List Nat) : Option (List Nat × ℤ) :=
  match r with
  | .error _ => none
  | .ok f => match f p with
    | some (.data d) => some (d.dims, d.elem idx)
    | _ => none

example : at? (hdf5Run 0 ["t", "x(ship)", "waves"] cruise) (path ["states", "ship", "X"]) [2] = some ([3], 56) ∧
    at? (hdf5Run 0 ["t", "x(ship)", "waves"] cruise) (wavePath 'z') [1, 2, 1] = some ([2, 3, 3], 16) ∧
    at? (hdf5Run 0 ["t", "x(ship)", "waves"] cruise) (wavePath 'y') [0, 2] = some ([3, 3], 7) := by
  decide +kernel

end Xdyn.Hdf5
