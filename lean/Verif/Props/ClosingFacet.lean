import Verif.Props.Closing
import Verif.Props.Hydrostatic
import Mathlib.Data.List.Range
import Mathlib.Logic.Relation

/-!
Properties C110 (groups of connected edges), C111 and C112 for the whole of `build_closing_edge`.
-/

namespace Xdyn.Closing

open Hull

/-! ### C110: groups of connected edges -/

/-- The edges `i` and `j`, both listed in `l`, have a node in common. -/
def Neighbours (E : List Edge) (l : List Nat) (i j : Nat) : Prop :=
  i ∈ l ∧ j ∈ l ∧ ∃ a b, E[i]? = some a ∧ E[j]? = some b ∧ (a.1 = b.1 ∨ a.1 = b.2 ∨ a.2 = b.1 ∨ a.2 = b.2)

/-- One goes from the edge `i` to the edge `j` through edges listed in `l`, each having a node in common with the next one. -/
def ConnectedIn (E : List Edge) (l : List Nat) (i j : Nat) : Prop := Relation.ReflTransGen (Neighbours E l) i j

/-- Two nodes are the ends of one of the edges `R`. -/
def Linked (R : List Edge) (a b : Nat) : Prop := (a, b) ∈ R ∨ (b, a) ∈ R

/-- What Boost's documentation says of `connected_components`: nodes have the same component when there is a path from one to
the other, components are numbered from zero without gap. -/
structure IsComponents (R : List Edge) (comp : Nat → Nat) (count : Nat) : Prop where
  lt : ∀ e ∈ R, comp e.1 < count ∧ comp e.2 < count
  path : ∀ e ∈ R, ∀ f ∈ R, comp e.1 = comp f.1 ↔ Relation.ReflTransGen (Linked R) e.1 f.1
  ends : ∀ e ∈ R, comp e.1 = comp e.2
  used : ∀ c < count, ∃ e ∈ R, comp e.1 = c

theorem perm_flatten_filter {α : Type} (f : α → Nat) (l : List α) : ∀ n : Nat,
    ((List.range n).map (fun c => l.filter (fun i => f i == c))).flatten.Perm (l.filter (fun i => decide (f i < n)))
  | 0 => by simp
  | n + 1 => by
    rw [List.range_succ, List.map_append, List.flatten_append]
    have h1 := (perm_flatten_filter f l n).append_right ([List.filter (fun i => f i == n) l].flatten)
    refine h1.trans ?_
    have h2 := List.filter_append_perm (fun i => decide (f i < n)) (l.filter (fun i => decide (f i < n + 1)))
    refine List.Perm.trans ?_ h2
    rw [List.filter_filter, List.filter_filter]
    simp only [List.flatten_cons, List.flatten_nil, List.append_nil]
    have e1 : l.filter (fun i => decide (f i < n)) = l.filter (fun i => decide (f i < n) && decide (f i < n + 1)) := by
      apply List.filter_congr; intro i _; grind
    have e2 : l.filter (fun i => f i == n) = l.filter (fun i => (!decide (f i < n)) && decide (f i < n + 1)) := by
      apply List.filter_congr; intro i _; grind
    rw [← e1, ← e2]

/-- The first end of the edge `i`. -/
def firstEnd (E : List Edge) (i : Nat) : Nat := ((E[i]?).getD (0, 0)).1

theorem filter_range_map (E : List Edge) (l : List Nat) (hl : ∀ i ∈ l, i < E.length) (p : Nat → Bool) (R : List Edge) (hR : R = l.map (fun i => (E[i]?).getD (0, 0))) :
    ((List.range R.length).filter (touches R p)).map (fun k => l.getD k 0) = l.filter (touches E p) := by
  have h1 : l = (List.range l.length).map (fun k => l.getD k 0) := by
    apply List.ext_getElem
    · simp
    · intro i h1 h2; simp [List.getD, List.getElem?_eq_getElem h1]
  have h2 : R.length = l.length := by rw [hR]; simp
  conv_rhs => rw [h1, List.filter_map]
  rw [h2]
  congr 1
  apply List.filter_congr
  intro k hk
  rw [List.mem_range] at hk
  have hlt : l[k] < E.length := hl _ (List.getElem_mem _)
  simp only [Function.comp, touches, hR, List.getElem?_map, List.getElem?_eq_getElem hk, Option.map_some, List.getD, Option.getD_some,
    List.getElem?_eq_getElem hlt]

/-- The groups, in terms of the original numbers of the edges. -/
theorem group_eq (boost : Components) (E : List Edge) (l : List Nat) (hne : l ≠ []) (hl : ∀ i ∈ l, i < E.length) :
    groupConnectedEdges boost E l = .ok ((List.range (boost (l.map (fun i => (E[i]?).getD (0, 0)))).2).map
      (fun c => l.filter (touches E (fun m => (boost (l.map (fun i => (E[i]?).getD (0, 0)))).1 m == c)))) := by
  unfold groupConnectedEdges
  simp only [if_neg hne]
  rw [Waves.mapM_ok (g := fun i => (E[i]?).getD (0, 0)) l (fun i hi => by
    rw [Waves.getAt_of_lt (hl i hi), List.getElem?_eq_getElem (hl i hi)]; rfl)]
  simp only [bind, Except.bind]
  generalize hR : l.map (fun i => (E[i]?).getD (0, 0)) = R
  rw [Waves.mapM_ok (g := fun ks => ks.map (fun k => l.getD k 0))]
  · unfold edgesPerComponent
    rw [List.map_map]
    congr 1
    apply List.map_congr_left
    intro c _
    exact filter_range_map E l hl _ R hR.symm
  · intro ks hks
    apply Waves.mapM_ok
    intro k hk
    obtain ⟨c, -, rfl⟩ := List.mem_map.mp hks
    have hk1 : k < l.length := by
      have := List.mem_range.mp (List.mem_filter.mp hk).1
      rw [← hR] at this
      simpa using this
    rw [Waves.getUB_of_lt hk1]
    simp [List.getD, List.getElem?_eq_getElem hk1]

/-- With the components of Boost, an edge is in the group of its first end. -/
theorem touches_eq {boost : Components} {E : List Edge} {l : List Nat} (hl : ∀ i ∈ l, i < E.length)
    (hb : IsComponents (l.map (fun i => (E[i]?).getD (0, 0))) (boost (l.map (fun i => (E[i]?).getD (0, 0)))).1 (boost (l.map (fun i => (E[i]?).getD (0, 0)))).2)
    (c : Nat) : ∀ i ∈ l, touches E (fun m => (boost (l.map (fun i => (E[i]?).getD (0, 0)))).1 m == c) i =
      ((boost (l.map (fun i => (E[i]?).getD (0, 0)))).1 (firstEnd E i) == c) := by
  intro i hi
  have hm : (E[i]?).getD (0, 0) ∈ l.map (fun i => (E[i]?).getD (0, 0)) := List.mem_map.mpr ⟨i, hi, rfl⟩
  have := hb.ends _ hm
  unfold touches firstEnd
  rw [List.getElem?_eq_getElem (hl i hi)] at this ⊢
  simp only [Option.getD_some] at this ⊢
  rw [← this, Bool.or_self]

theorem linked_of_edge {R : List Edge} {e : Edge} (he : e ∈ R) : Relation.ReflTransGen (Linked R) e.1 e.2 := .single (Or.inl he)

theorem linked_symm {R : List Edge} {a b : Nat} (h : Relation.ReflTransGen (Linked R) a b) : Relation.ReflTransGen (Linked R) b a := by
  induction h with
  | refl => exact .refl
  | tail _ h ih => exact .head (Or.symm h) ih

/-- A path of edges gives a path of nodes. -/
theorem nodes_of_edges {E : List Edge} {l : List Nat} {i j : Nat} (hi : i ∈ l) (hl : ∀ i ∈ l, i < E.length) (h : ConnectedIn E l i j) :
    j ∈ l ∧ Relation.ReflTransGen (Linked (l.map (fun i => (E[i]?).getD (0, 0)))) (firstEnd E i) (firstEnd E j) := by
  induction h with
  | refl => exact ⟨hi, .refl⟩
  | @tail j k _ hjk ih =>
    obtain ⟨hj, hk, a, b, ha, hb, hab⟩ := hjk
    refine ⟨hk, ih.2.trans ?_⟩
    have hma : a ∈ l.map (fun i => (E[i]?).getD (0, 0)) := List.mem_map.mpr ⟨j, hj, by rw [ha]; rfl⟩
    have hmb : b ∈ l.map (fun i => (E[i]?).getD (0, 0)) := List.mem_map.mpr ⟨k, hk, by rw [hb]; rfl⟩
    have h1 := linked_of_edge hma
    have h2 := linked_symm (linked_of_edge hmb)
    have e1 : firstEnd E j = a.1 := by unfold firstEnd; rw [ha]; rfl
    have e2 : firstEnd E k = b.1 := by unfold firstEnd; rw [hb]; rfl
    rw [e1, e2]
    rcases hab with h | h | h | h
    · rw [h]
    · rw [h]; exact h2
    · rw [← h]; exact h1
    · exact h1.trans (h ▸ h2)

/-- The node `m` is an end of the edge `i`. -/
def EndOf (E : List Edge) (i m : Nat) : Prop := ∃ e, E[i]? = some e ∧ (e.1 = m ∨ e.2 = m)

theorem neighbours_of_end {E : List Edge} {l : List Nat} {i j m : Nat} (hi : i ∈ l) (hj : j ∈ l) (h1 : EndOf E i m) (h2 : EndOf E j m) : Neighbours E l i j := by
  obtain ⟨a, ha, ha'⟩ := h1
  obtain ⟨b, hb, hb'⟩ := h2
  refine ⟨hi, hj, a, b, ha, hb, ?_⟩
  rcases ha' with rfl | rfl <;> rcases hb' with h | h <;> simp [h]

/-- A path of nodes gives a path of edges. -/
theorem edges_of_nodes {E : List Edge} {l : List Nat} (hl : ∀ i ∈ l, i < E.length) {m m' : Nat}
    (h : Relation.ReflTransGen (Linked (l.map (fun i => (E[i]?).getD (0, 0)))) m m') :
    ∀ {i j : Nat}, i ∈ l → j ∈ l → EndOf E i m → EndOf E j m' → ConnectedIn E l i j := by
  induction h with
  | refl => intro i j hi hj h1 h2; exact .single (neighbours_of_end hi hj h1 h2)
  | @tail x y _ hxy ih =>
    intro i j hi hj h1 h2
    obtain ⟨k, hk, hx, hy⟩ : ∃ k ∈ l, EndOf E k x ∧ EndOf E k y := by
      rcases hxy with h | h
      · obtain ⟨k, hk, he⟩ := List.mem_map.mp h
        rw [List.getElem?_eq_getElem (hl k hk)] at he
        simp only [Option.getD_some] at he
        exact ⟨k, hk, ⟨_, List.getElem?_eq_getElem (hl k hk), by rw [he]; simp⟩, ⟨_, List.getElem?_eq_getElem (hl k hk), by rw [he]; simp⟩⟩
      · obtain ⟨k, hk, he⟩ := List.mem_map.mp h
        rw [List.getElem?_eq_getElem (hl k hk)] at he
        simp only [Option.getD_some] at he
        exact ⟨k, hk, ⟨_, List.getElem?_eq_getElem (hl k hk), by rw [he]; simp⟩, ⟨_, List.getElem?_eq_getElem (hl k hk), by rw [he]; simp⟩⟩
    exact (ih hi hk h1 hx).tail (neighbours_of_end hk hj hy h2)

theorem endOf_firstEnd {E : List Edge} {i : Nat} (hi : i < E.length) : EndOf E i (firstEnd E i) :=
  ⟨E[i], List.getElem?_eq_getElem hi, Or.inl (by unfold firstEnd; rw [List.getElem?_eq_getElem hi]; rfl)⟩

/-- **C110** The edges of the free surface are dispatched, each exactly once, in non-empty groups, and two of them are in
the same group if and only if they are connected. -/
theorem group_connected_edges (boost : Components) (E : List Edge) (l : List Nat) (hne : l ≠ []) (hl : ∀ i ∈ l, i < E.length)
    (hb : IsComponents (l.map (fun i => (E[i]?).getD (0, 0))) (boost (l.map (fun i => (E[i]?).getD (0, 0)))).1 (boost (l.map (fun i => (E[i]?).getD (0, 0)))).2) :
    ∃ groups, groupConnectedEdges boost E l = .ok groups ∧ groups.flatten.Perm l ∧ (∀ g ∈ groups, g ≠ []) ∧
      ∀ i ∈ l, ∀ j ∈ l, (∃ g ∈ groups, i ∈ g ∧ j ∈ g) ↔ ConnectedIn E l i j := by
  refine ⟨_, group_eq boost E l hne hl, ?_, ?_, ?_⟩
  · have h1 : (List.range (boost (l.map (fun i => (E[i]?).getD (0, 0)))).2).map
        (fun c => l.filter (touches E (fun m => (boost (l.map (fun i => (E[i]?).getD (0, 0)))).1 m == c))) =
        (List.range (boost (l.map (fun i => (E[i]?).getD (0, 0)))).2).map
        (fun c => l.filter (fun i => (boost (l.map (fun i => (E[i]?).getD (0, 0)))).1 (firstEnd E i) == c)) := by
      apply List.map_congr_left
      intro c _
      exact List.filter_congr (touches_eq hl hb c)
    rw [h1]
    refine (perm_flatten_filter (fun i => (boost (l.map (fun i => (E[i]?).getD (0, 0)))).1 (firstEnd E i)) l _).trans ?_
    rw [List.filter_eq_self.mpr]
    intro i hi
    exact decide_eq_true (hb.lt _ (List.mem_map.mpr ⟨i, hi, rfl⟩)).1
  · intro g hg
    obtain ⟨c, hc, rfl⟩ := List.mem_map.mp hg
    obtain ⟨e, he, hec⟩ := hb.used c (List.mem_range.mp hc)
    obtain ⟨i, hi, rfl⟩ := List.mem_map.mp he
    apply List.ne_nil_of_mem (a := i)
    rw [List.mem_filter]
    refine ⟨hi, ?_⟩
    rw [touches_eq hl hb c i hi]
    exact beq_iff_eq.mpr hec
  · intro i hi j hj
    have hmi : (E[i]?).getD (0, 0) ∈ l.map (fun i => (E[i]?).getD (0, 0)) := List.mem_map.mpr ⟨i, hi, rfl⟩
    have hmj : (E[j]?).getD (0, 0) ∈ l.map (fun i => (E[i]?).getD (0, 0)) := List.mem_map.mpr ⟨j, hj, rfl⟩
    have hp := hb.path _ hmi _ hmj
    constructor
    · rintro ⟨g, hg, hig, hjg⟩
      obtain ⟨c, hc, rfl⟩ := List.mem_map.mp hg
      have h1 := (List.mem_filter.mp hig).2
      have h2 := (List.mem_filter.mp hjg).2
      rw [touches_eq hl hb c i hi, beq_iff_eq] at h1
      rw [touches_eq hl hb c j hj, beq_iff_eq] at h2
      exact edges_of_nodes hl (hp.mp (h1.trans h2.symm)) hi hj (endOf_firstEnd (hl i hi)) (endOf_firstEnd (hl j hj))
    · intro h
      have h1 := (nodes_of_edges hi hl h).2
      have h2 := hp.mpr h1
      refine ⟨_, List.mem_map.mpr ⟨_, List.mem_range.mpr (hb.lt _ hmi).1, rfl⟩, ?_, ?_⟩
      · rw [List.mem_filter, touches_eq hl hb _ i hi]
        exact ⟨hi, beq_iff_eq.mpr rfl⟩
      · rw [List.mem_filter, touches_eq hl hb _ j hj]
        exact ⟨hj, beq_iff_eq.mpr h2.symm⟩

/-- There are such components for any list of edges: the hypothesis on Boost can be met. -/
theorem components_exist (R : List Edge) : ∃ comp count, IsComponents R comp count := by
  classical
  let S := {m : Nat // ∃ e ∈ R, m = e.1 ∨ m = e.2}
  have hfin : Finite S := by
    apply Set.Finite.subset ((R.map Prod.fst ++ R.map Prod.snd).toFinset.finite_toSet)
    rintro m ⟨e, he, h⟩
    rcases h with rfl | rfl
    · simp only [List.coe_toFinset, Set.mem_ofPred_eq, List.mem_append, List.mem_map]; exact Or.inl ⟨e, he, rfl⟩
    · simp only [List.coe_toFinset, Set.mem_ofPred_eq, List.mem_append, List.mem_map]; exact Or.inr ⟨e, he, rfl⟩
  let st : Setoid S := ⟨fun a b => Relation.ReflTransGen (Linked R) a.1 b.1, fun _ => .refl, linked_symm, fun h1 h2 => h1.trans h2⟩
  let φ := Finite.equivFin (Quotient st)
  have hcomp : ∀ m (h : ∃ e ∈ R, m = e.1 ∨ m = e.2), (if h : ∃ e ∈ R, m = e.1 ∨ m = e.2 then (φ ⟦⟨m, h⟩⟧).val else 0) = (φ ⟦⟨m, h⟩⟧).val :=
    fun m h => dif_pos h
  have h1 : ∀ e ∈ R, ∃ f ∈ R, e.1 = f.1 ∨ e.1 = f.2 := fun e he => ⟨e, he, Or.inl rfl⟩
  have h2 : ∀ e ∈ R, ∃ f ∈ R, e.2 = f.1 ∨ e.2 = f.2 := fun e he => ⟨e, he, Or.inr rfl⟩
  refine ⟨fun m => if h : ∃ e ∈ R, m = e.1 ∨ m = e.2 then (φ ⟦⟨m, h⟩⟧).val else 0, Nat.card (Quotient st), ?_, ?_, ?_, ?_⟩
  · intro e he
    rw [hcomp _ (h1 e he), hcomp _ (h2 e he)]
    exact ⟨Fin.isLt _, Fin.isLt _⟩
  · intro e he f hf
    rw [hcomp _ (h1 e he), hcomp _ (h1 f hf), Fin.val_inj, φ.injective.eq_iff, Quotient.eq]
    exact Iff.rfl
  · intro e he
    rw [hcomp _ (h1 e he), hcomp _ (h2 e he), Fin.val_inj, φ.injective.eq_iff, Quotient.eq]
    exact linked_of_edge he
  · intro c hc
    obtain ⟨q, hq⟩ := φ.surjective ⟨c, hc⟩
    obtain ⟨⟨m, e, he, hm⟩, rfl⟩ := Quotient.exists_rep q
    refine ⟨e, he, ?_⟩
    rw [hcomp _ (h1 e he)]
    have : (φ ⟦⟨m, e, he, hm⟩⟧).val = c := by rw [hq]
    rw [← this, Fin.val_inj, φ.injective.eq_iff, Quotient.eq]
    rcases hm with rfl | rfl
    · exact .refl
    · exact linked_of_edge he

/-! ### C111 and C112: the closing facets -/

/-- The edges of the mesh listed in `l` are the sides of a polygon: as `IsPolygon`, with the numbers of the edges in the mesh. -/
structure IsPolygonIn (E : List Edge) (l : List Nat) (n : Nat) (v s : ZMod n → Nat) : Prop where
  three : 3 ≤ n
  length : l.length = n
  corners : Function.Injective v
  sides : Function.Injective s
  mem : ∀ j, s j ∈ l
  side : ∀ j, E[s j]? = some (v j, v (j + 1)) ∨ E[s j]? = some (v (j + 1), v j)

section Facet
variable {E : List Edge} {l : List Nat} {n : Nat} {v s : ZMod n → Nat} {nodes : List (Pt ℝ)}

/-- The same polygon, in the list of its edges only. -/
theorem IsPolygonIn.local (h : IsPolygonIn E l n v s) :
    ∃ t : ZMod n → Nat, IsPolygon (l.map (fun i => (E[i]?).getD (0, 0))) n v t ∧ ∀ j, l[t j]? = some (s j) := by
  have hex : ∀ j, ∃ k, l[k]? = some (s j) := fun j => List.mem_iff_getElem?.mp (h.mem j)
  choose t ht using hex
  refine ⟨t, ⟨h.three, by simp [h.length], h.corners, ?_, ?_⟩, ht⟩
  · intro a b hab
    have h1 := ht a
    rw [hab, ht b] at h1
    exact h.sides (Option.some.inj h1).symm
  · intro j
    rw [List.getElem?_map, ht j]
    rcases h.side j with hs | hs <;> simp [hs]

theorem mk_ok (h : IsPolygonIn E l n v s) (hl : ∀ i ∈ l, i < E.length) :
    ∃ C, Computer.mk' nodes E l = .ok C ∧ C.nodes = nodes ∧ C.edges = l.map (fun i => (E[i]?).getD (0, 0)) ∧ C.original = l := by
  have hn := h.three
  have hne : l ≠ [] := by
    intro hc
    have := h.length
    rw [hc] at this; simp at this; omega
  have h0 : 0 < E.length := by
    obtain ⟨i, l', hi⟩ := List.exists_cons_of_ne_nil hne
    have := hl i (by rw [hi]; simp)
    omega
  unfold Computer.mk'
  simp only [if_neg hne, Waves.getAt_of_lt h0, bind, Except.bind]
  rw [Waves.mapM_ok (g := fun i => (E[i]?).getD (0, 0)) l (fun i hi => by
    rw [Waves.getAt_of_lt (hl i hi), List.getElem?_eq_getElem (hl i hi)]; rfl)]
  exact ⟨_, rfl, rfl, rfl, rfl⟩

/-- The second vertex of an oriented edge of the contour. -/
theorem secondVertex_orientedId {i a b : Nat} {r : Bool} (h : E[i]? = some (if r then (b, a) else (a, b))) : secondVertex E (orientedId i r) = .ok b := by
  have h1 : (orientedId i r) >>> 1 = i := by
    unfold orientedId
    rw [Nat.shiftRight_or_distrib]
    cases r <;> simp [Nat.shiftLeft_shiftRight]
  have h2 : orientedId i r &&& 1 = if r then 1 else 0 := by
    unfold orientedId
    rw [Nat.and_or_distrib_right]
    have : i <<< 1 &&& 1 = 0 := by
      rw [Nat.shiftLeft_eq, Nat.and_one_is_mod]; omega
    rw [this]
    cases r <;> simp
  unfold secondVertex endOf
  rw [h1, h2]
  unfold getUB
  rw [h]
  cases r <;> simp [bind, Except.bind, pure, Except.pure]

theorem facetLoop_nodup : ∀ (vs seen : List Nat), vs.Nodup → (∀ v ∈ vs, v ∉ seen) → facetLoop seen vs = vs ∧ nbDistinct seen vs = vs.length := by
  intro vs
  induction vs with
  | nil => intro seen _ _; exact ⟨rfl, rfl⟩
  | cons v vs ih =>
    intro seen hnd hs
    rw [List.nodup_cons] at hnd
    obtain ⟨h1, h2⟩ := ih (v :: seen) hnd.2 (fun w hw => by
      simp only [List.mem_cons, not_or]
      exact ⟨fun hc => hnd.1 (hc ▸ hw), hs w (by simp [hw])⟩)
    unfold facetLoop nbDistinct
    rw [if_neg (hs v (by simp)), if_neg (hs v (by simp)), h1, h2]
    simp [Nat.add_comm]

/-- The corners of the polygon, starting from the corner 1. -/
def cornersFrom1 (n : Nat) (v : ZMod n → Nat) : List Nat := (List.range n).map (fun j : Nat => v ((j : ZMod n) + 1))

theorem cornersFrom1_nodup (hn : 3 ≤ n) (h : Function.Injective v) : (cornersFrom1 n v).Nodup := by
  haveI : NeZero n := ⟨by omega⟩
  apply List.Nodup.map_on _ List.nodup_range
  intro a ha b hb hab
  rw [List.mem_range] at ha hb
  have h1 : (a : ZMod n) = b := add_right_cancel (h hab)
  have h2 := congrArg ZMod.val h1
  rwa [ZMod.val_natCast_of_lt ha, ZMod.val_natCast_of_lt hb] at h2

/-- The vertices of the facet made of a contour around a polygon are its corners, in order. -/
theorem facet_of_contour {c : Contour} (hn : 3 ≤ n) (hv : Function.Injective v) (hc : Around E n v s c) :
    facetVertices E (c.map (fun e => orientedId e.1 e.2)) = .ok (cornersFrom1 n v) := by
  have h1 : (c.map (fun e => orientedId e.1 e.2)).mapM (secondVertex E) = .ok (cornersFrom1 n v) := by
    have : c.map (fun e => orientedId e.1 e.2) = (List.range n).map (fun j => (c.map (fun e => orientedId e.1 e.2)).getD j 0) := by
      apply List.ext_getElem
      · simp [hc.1]
      · intro i h1 h2; simp [List.getD, List.getElem?_eq_getElem (by simpa using h1 : i < c.length)]
    rw [this, List.mapM_map]
    unfold cornersFrom1
    apply Waves.mapM_ok
    intro j hj
    obtain ⟨r, h2, h3⟩ := hc.2 j (List.mem_range.mp hj)
    simp only [List.getD, List.getElem?_map, h2, Option.map_some, Option.getD_some, Function.comp]
    exact secondVertex_orientedId h3
  unfold facetVertices
  rw [h1]
  obtain ⟨h2, h3⟩ := facetLoop_nodup (cornersFrom1 n v) [] (cornersFrom1_nodup hn hv) (by simp)
  simp only [bind, Except.bind, pure, Except.pure, h2, h3, List.take_length]

/-- A contour of the edges of a group, with their numbers in the mesh. -/
theorem Around.lift (hl : ∀ i ∈ l, i < E.length) {t : ZMod n → Nat} (hp : IsPolygon (l.map (fun i => (E[i]?).getD (0, 0))) n v t) {c : Contour}
    (hc : Around (l.map (fun i => (E[i]?).getD (0, 0))) n v t c) :
    Around E n v (fun j => l.getD (t j) 0) (c.map (fun e => (l.getD e.1 0, e.2))) := by
  refine ⟨by simp [hc.1], fun j hj => ?_⟩
  obtain ⟨r, h1, h2⟩ := hc.2 j hj
  have hlen : l.length = n := by have := hp.length; simpa using this
  have ht : t j < l.length := by rw [hlen]; exact hp.lt _
  refine ⟨r, by simp [h1], ?_⟩
  rw [← h2]
  simp only [List.getD, List.getElem?_map, List.getElem?_eq_getElem ht, Option.getD_some, Option.map_some]
  rw [List.getElem?_eq_getElem (hl _ (List.getElem_mem _)), Option.getD_some]

theorem closing_facet_aux (h : IsPolygonIn E l n v s) (hl : ∀ i ∈ l, i < E.length) :
    ∃ C e t, C.nodes = nodes ∧ C.edges = l.map (fun i => (E[i]?).getD (0, 0)) ∧ IsPolygon C.edges n v t ∧ e < n ∧ ∀ v' t' c, contourFrom C e = .ok c → IsPolygon C.edges n v' t' → Around C.edges n v' t' c →
      closingFacet nodes E l = .ok (some ⟨cornersFrom1 n v', ⟨0, 0, -1⟩⟩) := by
  obtain ⟨C, hC, hCn, hCe, hCo⟩ := mk_ok (nodes := nodes) h hl
  obtain ⟨t, hp, ht⟩ := h.local
  rw [← hCe] at hp
  obtain ⟨e, c, he, hf, hc⟩ := contour_from C hp (by rw [hCo]; exact h.length)
  refine ⟨C, e, t, hCn, hCe, hp, he, fun v' t' c' hf' hp' har => ?_⟩
  obtain rfl : c = c' := by rw [hf] at hf'; exact Except.ok.inj hf'
  rw [hCe] at hp' har
  have hlift := har.lift hl hp'
  unfold closingFacet
  rw [hCo] at hc
  have hne : c.map (fun e => (l.getD e.1 0, e.2)) ≠ [] := by
    have hn := h.three
    intro hcn
    have := hlift.1
    rw [hcn] at this; simp at this; omega
  simp only [hC, hc, bind, Except.bind, if_neg hne, facet_of_contour h.three hp'.corners hlift, pure, Except.pure]

/-- **C111** When a group of edges of the free surface is a polygon, in any order and direction, the closing facet is that
polygon. -/
theorem closing_facet_of_polygon (h : IsPolygonIn E l n v s) (hl : ∀ i ∈ l, i < E.length) :
    ∃ v', SameCorners v v' ∧ closingFacet nodes E l = .ok (some ⟨cornersFrom1 n v', ⟨0, 0, -1⟩⟩) := by
  obtain ⟨C, e, t, -, -, hp, he, H⟩ := closing_facet_aux (nodes := nodes) h hl
  obtain ⟨v', s', c', hf', hsame, hp', har⟩ := contour_of_polygon C hp he
  exact ⟨v', hsame, H v' s' c' hf' hp' har⟩

/-- The triangles of the fan of a convex polygon run clockwise are all run clockwise (seen along the z axis). -/
theorem fan_clockwise (h : Convex nodes v (-1)) (hn : 3 ≤ n) :
    ∀ (m k : Nat), k + m = n → 
      let F := fanVec (corner nodes v 1) (corner nodes v ((k : ZMod n) + 1)) ((List.range' (k + 1) (m - 1)).map (fun j : Nat => corner nodes v ((j : ZMod n) + 1)))
      F.z ≤ 0 := by
  intro m
  induction m with
  | zero => intro k _; simp [fanVec]
  | succ m ih =>
    intro k hk
    rcases Nat.eq_zero_or_pos m with rfl | hm
    · simp [fanVec]
    · obtain ⟨m, rfl⟩ : ∃ m', m = m' + 1 := ⟨m - 1, by omega⟩
      have h1 := ih (k + 1) (by omega)
      simp only [Nat.add_sub_cancel] at h1 ⊢
      rw [List.range'_succ, List.map_cons, fanVec]
      simp only [Pt.add]
      have h2 := h.side ((k : ZMod n) + 1) 1
      have h3 : (((k + 1 : Nat) : ZMod n) + 1) = (k : ZMod n) + 1 + 1 := by push_cast; ring
      rw [h3] at h1 ⊢
      simp only [sideVec, vsub, zcross] at h2
      simp only [cross3]
      linarith [h1, h2]

/-- The same for areas, when the polygon is horizontal. -/
theorem fan_area (h : Convex nodes v (-1)) (hn : 3 ≤ n) {z : ℝ} (hz : ∀ j, (corner nodes v j).z = z) :
    ∀ (m k : Nat), k + m = n →
      let L := (List.range' (k + 1) (m - 1)).map (fun j : Nat => corner nodes v ((j : ZMod n) + 1))
      let F := fanVec (corner nodes v 1) (corner nodes v ((k : ZMod n) + 1)) L
      F.x = 0 ∧ F.y = 0 ∧ F.z = -2 * fanFrom (corner nodes v 1) (corner nodes v ((k : ZMod n) + 1)) L := by
  intro m
  induction m with
  | zero => intro k _; simp [fanVec, fanFrom]
  | succ m ih =>
    intro k hk
    rcases Nat.eq_zero_or_pos m with rfl | hm
    · simp [fanVec, fanFrom]
    · obtain ⟨m, rfl⟩ : ∃ m', m = m' + 1 := ⟨m - 1, by omega⟩
      obtain ⟨h1, h1', h1''⟩ := ih (k + 1) (by omega)
      simp only [Nat.add_sub_cancel] at h1 h1' h1'' ⊢
      rw [List.range'_succ, List.map_cons, fanVec, fanFrom]
      simp only [Pt.add]
      have h2 := h.side ((k : ZMod n) + 1) 1
      have h3 : (((k + 1 : Nat) : ZMod n) + 1) = (k : ZMod n) + 1 + 1 := by push_cast; ring
      rw [h3] at h1 h1' h1'' ⊢
      simp only [sideVec, vsub, zcross] at h2
      have ha : triArea (corner nodes v 1) (corner nodes v ((k : ZMod n) + 1)) (corner nodes v ((k : ZMod n) + 1 + 1)) =
          -(cross3 (corner nodes v 1) (corner nodes v ((k : ZMod n) + 1)) (corner nodes v ((k : ZMod n) + 1 + 1))).z / 2 := by
        have hx : normal2 (corner nodes v 1) (corner nodes v ((k : ZMod n) + 1)) (corner nodes v ((k : ZMod n) + 1 + 1)) =
            ⟨0, 0, (cross3 (corner nodes v 1) (corner nodes v ((k : ZMod n) + 1)) (corner nodes v ((k : ZMod n) + 1 + 1))).z⟩ := by
          simp [normal2, cross3, hz]
        unfold triArea
        rw [hx]
        unfold norm3
        simp only [mul_zero, zero_add]
        rw [Real.sqrt_mul_self_eq_abs, abs_of_nonpos (by simp only [cross3]; linarith)]
        ring
      refine ⟨?_, ?_, ?_⟩
      · rw [h1]; simp [cross3, hz]
      · rw [h1']; simp [cross3, hz]
      · rw [h1'', ha]; ring

theorem cornersFrom1_points (hn : 3 ≤ n) (v : ZMod n → Nat) :
    (cornersFrom1 n v).map (col nodes) = corner nodes v 1 :: corner nodes v (1 + 1) ::
      (List.range' 2 (n - 2)).map (fun j : Nat => corner nodes v ((j : ZMod n) + 1)) := by
  unfold cornersFrom1
  obtain ⟨m, rfl⟩ : ∃ m, n = m + 1 + 1 := ⟨n - 2, by omega⟩
  rw [List.map_map, List.range_eq_range', List.range'_succ, List.range'_succ]
  simp [corner, Function.comp_def]

/-- The area vector of the facet points towards negative z. -/
theorem area_vector_up (h : Convex nodes v (-1)) (hn : 3 ≤ n) : (areaVector2 ((cornersFrom1 n v).map (col nodes))).z < 0 := by
  rw [cornersFrom1_points hn, areaVector2_fan]
  obtain ⟨m, rfl⟩ : ∃ m, n = m + 3 := ⟨n - 3, by omega⟩
  have h1 := fan_clockwise h hn (m + 1) 2 (by omega)
  simp only [Nat.add_sub_cancel] at h1
  rw [show m + 3 - 2 = m + 1 by omega, List.range'_succ, List.map_cons, fanVec]
  simp only [Pt.add]
  have h2 := h.turn 1
  have hpos : (0 : ℝ) < 1 / 10 ^ 10 := by norm_num
  have e2 : (((2 : Nat) : ZMod (m + 3)) + 1) = 1 + 1 + 1 := by push_cast; ring
  rw [e2] at h1 ⊢
  have h3 : (cross3 (corner nodes v 1) (corner nodes v (1 + 1)) (corner nodes v (1 + 1 + 1))).z < 0 := by
    have : zcross (sideVec nodes v 1) (sideVec nodes v (1 + 1)) < 0 := by rw [neg_one_mul] at h2; exact neg_pos.mp (lt_of_lt_of_le hpos h2)
    simp only [sideVec, vsub, zcross] at this
    simp only [cross3]
    linarith
  linarith

/-- **C112 (convex waterlines)** The closing facet of a convex waterline is run in the direction of its
normal (0, 0, -1); when the waterline is horizontal, (0, 0, -1) is its unit normal and the closing facet brings its exact area. -/
theorem closing_facet_direction (h : IsPolygonIn E l n v s) (hl : ∀ i ∈ l, i < E.length) {ε : ℝ} (hε : ε = 1 ∨ ε = -1) (hconv : Convex nodes v ε) :
    ∃ f v', closingFacet nodes E l = .ok (some f) ∧ SameCorners v v' ∧ f.vertices = cornersFrom1 n v' ∧
      (areaVector2 (f.vertices.map (col nodes))).z < 0 ∧
      ∀ z, (∀ j, (corner nodes v j).z = z) → areaVector2 (f.vertices.map (col nodes)) = Pt.smul (2 * polyArea (f.vertices.map (col nodes))) f.normal := by
  obtain ⟨C, e, t, hCn, -, hp, he, H⟩ := closing_facet_aux (nodes := nodes) h hl
  obtain ⟨v', s', c', hf', hsame, hp', har, hcv⟩ := contour_direction C hp hε (by rw [hCn]; exact hconv) he
  rw [hCn] at hcv
  refine ⟨_, v', H v' s' c' hf' hp' har, hsame, rfl, area_vector_up hcv h.three, ?_⟩
  intro z hz
  have hz' : ∀ j, (corner nodes v' j).z = z := by
    intro j
    rcases hsame with ⟨k, rfl⟩ | ⟨k, rfl⟩ <;> exact hz _
  simp only
  rw [cornersFrom1_points h.three, areaVector2_fan]
  obtain ⟨h1, h2, h3⟩ := fan_area hcv h.three hz' (n - 1) 1 (by have := h.three; omega)
  simp only [show n - 1 - 1 = n - 2 by omega, Nat.cast_one] at h1 h2 h3
  unfold polyArea Pt.smul
  generalize fanVec _ _ _ = F at h1 h2 h3 ⊢
  obtain ⟨x, y, z⟩ := F
  simp only at h1 h2 h3
  subst h1 h2 h3
  simp

/-- **C111, C112 (all the groups)** When each connected group of edges of the free surface is a convex polygon, there is exactly one
closing facet per group, run in the direction of its normal. -/
theorem closing_facets (boost : Components) (l : List Nat) (hne : l ≠ []) (hl : ∀ i ∈ l, i < E.length) (groups : List (List Nat))
    (hg : groupConnectedEdges boost E l = .ok groups)
    (hpoly : ∀ g ∈ groups, (∀ i ∈ g, i ∈ l) ∧ ∃ (n : Nat) (v s : ZMod n → Nat) (ε : ℝ), IsPolygonIn E g n v s ∧ (ε = 1 ∨ ε = -1) ∧ Convex nodes v ε) :
    ∃ fs, closingFacets boost nodes E l = .ok fs ∧
      List.Forall₂ (fun g f => f.normal = ⟨0, 0, -1⟩ ∧ (areaVector2 (f.vertices.map (col nodes))).z < 0 ∧
        ∃ (n : Nat) (v s : ZMod n → Nat), IsPolygonIn E g n v s ∧ ∃ v', SameCorners v v' ∧ f.vertices = cornersFrom1 n v') groups fs := by
  have hall : ∀ g ∈ groups, ∃ f : Facet ℝ, closingFacet nodes E g = .ok (some f) ∧ (f.normal = ⟨0, 0, -1⟩ ∧ (areaVector2 (f.vertices.map (col nodes))).z < 0 ∧
        ∃ (n : Nat) (v s : ZMod n → Nat), IsPolygonIn E g n v s ∧ ∃ v', SameCorners v v' ∧ f.vertices = cornersFrom1 n v') := by
    intro g hgm
    obtain ⟨hsub, n, v, s, ε, hp, hε, hc⟩ := hpoly g hgm
    obtain ⟨f, v', h1, h2, h3, h4, -⟩ := closing_facet_direction hp (fun i hi => hl i (hsub i hi)) hε hc
    obtain ⟨v'', -, h5⟩ := closing_facet_of_polygon (nodes := nodes) hp (fun i hi => hl i (hsub i hi))
    rw [h1] at h5
    have : f = ⟨cornersFrom1 n v'', ⟨0, 0, -1⟩⟩ := Option.some.inj (Except.ok.inj h5)
    exact ⟨f, h1, by rw [this], h4, n, v, s, hp, v', h2, h3⟩
  have key : ∀ gs : List (List Nat), (∀ g ∈ gs, ∃ f : Facet ℝ, closingFacet nodes E g = .ok (some f) ∧ (f.normal = ⟨0, 0, -1⟩ ∧ (areaVector2 (f.vertices.map (col nodes))).z < 0 ∧
        ∃ (n : Nat) (v s : ZMod n → Nat), IsPolygonIn E g n v s ∧ ∃ v', SameCorners v v' ∧ f.vertices = cornersFrom1 n v')) →
      ∃ fs : List (Facet ℝ), gs.mapM (closingFacet nodes E) = .ok (fs.map some) ∧
        List.Forall₂ (fun g f => f.normal = ⟨0, 0, -1⟩ ∧ (areaVector2 (f.vertices.map (col nodes))).z < 0 ∧
        ∃ (n : Nat) (v s : ZMod n → Nat), IsPolygonIn E g n v s ∧ ∃ v', SameCorners v v' ∧ f.vertices = cornersFrom1 n v') gs fs := by
    intro gs
    induction gs with
    | nil => intro _; exact ⟨[], rfl, .nil⟩
    | cons g gs ih =>
      intro h
      obtain ⟨f, hf, hP⟩ := h g (by simp)
      obtain ⟨fs, hfs, hF⟩ := ih (fun g hg => h g (by simp [hg]))
      exact ⟨f :: fs, by simp only [List.mapM_cons, hf, hfs, bind, Except.bind, pure, Except.pure, List.map_cons], .cons hP hF⟩
  obtain ⟨fs, hfs, hF⟩ := key groups hall
  refine ⟨fs, ?_, hF⟩
  unfold closingFacets
  simp only [if_neg hne, hg, hfs, bind, Except.bind, pure, Except.pure]
  simp

end Facet

end Xdyn.Closing
