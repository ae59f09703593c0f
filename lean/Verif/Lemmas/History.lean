import Verif.Model.History
import Mathlib.Tactic.Linarith
import Mathlib.Tactic.FieldSimp
import Mathlib.Tactic.Ring

namespace Xdyn.History

variable {K : Type} [Field K] [LinearOrder K] [IsStrictOrderedRing K]

/-- Strictly increasing dates. -/
def Sorted (L : List (K × K)) : Prop := L.Pairwise (fun a b => a.1 < b.1)

/-- `idx` splits `L` into the dates before `t` and the others. -/
def Splits (L : List (K × K)) (t : K) (idx : Nat) : Prop :=
  idx ≤ L.length ∧ (∀ i (h : i < L.length), i < idx → L[i].1 < t) ∧
    (∀ i (h : i < L.length), idx ≤ i → t ≤ L[i].1)

theorem Sorted.lt {L : List (K × K)} (hs : Sorted L) {i j : Nat} (hj : j < L.length) (hij : i < j) :
    (L[i]'(hij.trans hj)).1 < L[j].1 :=
  List.pairwise_iff_getElem.1 hs i j (hij.trans hj) hj hij

theorem Sorted.le {L : List (K × K)} (hs : Sorted L) {i j : Nat} (hj : j < L.length) (hij : i ≤ j) :
    (L[i]'(hij.trans_lt hj)).1 ≤ L[j].1 := by
  rcases Nat.lt_or_eq_of_le hij with h | h
  · exact (hs.lt hj h).le
  · subst h; exact le_rfl

theorem getUB_eq {α : Type} (L : List α) (i : Nat) (h : i < L.length) : getUB L i = .ok L[i] := by
  simp [getUB, List.getElem?_eq_getElem h]

theorem splits_of {L : List (K × K)} (hs : Sorted L) {t : K} {idx : Nat} (hi : idx < L.length)
    (h1 : ∀ (h : 0 < idx), (L[idx - 1]).1 < t) (h2 : t ≤ L[idx].1) : Splits L t idx := by
  refine ⟨hi.le, fun i h hlt => ?_, fun i h hle => h2.trans (hs.le h hle)⟩
  exact lt_of_le_of_lt (hs.le (by omega) (by omega)) (h1 (by omega))

theorem bracketLoop_spec (L : List (K × K)) (t : K) (hs : Sorted L) : ∀ (n lo gr : Nat) (hg : gr < L.length)
    (hlg : lo < gr), gr - lo ≤ n → (L[lo]).1 < t → t ≤ L[gr].1 →
    ∃ idx, bracketLoop L t lo gr = .ok idx ∧ idx < L.length ∧ Splits L t idx := by
  intro n
  induction n with
  | zero => intro lo gr hg hlg hn; omega
  | succ n ih =>
    intro lo gr hg hlg hn hlo hgr
    rw [bracketLoop]
    simp only [getUB_eq L lo (hlg.trans hg), getUB_eq L gr hg]
    have hne : ¬ t = (L[lo]).1 := ne_of_gt hlo
    simp only [bind, Except.bind, if_neg hne, pure, Except.pure]
    by_cases he : t = L[gr].1
    · refine ⟨gr, by simp [he], hg, splits_of hs hg (fun h => ?_) hgr⟩
      rw [he]; exact hs.lt hg (by omega)
    · simp only [if_neg he]
      by_cases hd : gr ≤ lo + 1
      · simp only [dif_pos hd]
        refine ⟨gr, rfl, hg, splits_of hs hg (fun h => ?_) hgr⟩
        have : gr - 1 = lo := by omega
        simpa [this] using hlo
      · simp only [dif_neg hd]
        have hm : (lo + gr) / 2 < L.length := by omega
        simp only [getUB_eq L _ hm]
        by_cases hme : t = (L[(lo + gr) / 2]).1
        · simp only [if_pos hme]
          refine ⟨_, rfl, hm, splits_of hs hm (fun h => ?_) hme.le⟩
          rw [hme]; exact hs.lt hm (by omega)
        · simp only [if_neg hme]
          by_cases hlt : t < (L[(lo + gr) / 2]).1
          · simp only [if_pos hlt]
            exact ih lo _ hm (by omega) (by omega) hlo hlt.le
          · simp only [if_neg hlt]
            exact ih _ gr hg (by omega) (by omega)
              (lt_of_le_of_ne (not_lt.1 hlt) (Ne.symm hme)) hgr

theorem bracket_splits (L : List (K × K)) (t : K) (hs : Sorted L) :
    ∃ idx, bracket L t = .ok idx ∧ Splits L t idx := by
  unfold bracket
  cases hL : L with
  | nil => exact ⟨0, rfl, by simp [Splits]⟩
  | cons a l =>
    rw [← hL]
    have hne : L ≠ [] := by simp [hL]
    have hpos : 0 < L.length := List.length_pos_of_ne_nil hne
    have hh : L.head? = some L[0] := by simp [hL]
    have hb : L.getLast? = some (L[L.length - 1]) := by
      rw [List.getLast?_eq_getElem?, List.getElem?_eq_getElem]
    simp only [hh, hb]
    by_cases h1 : (L[L.length - 1]).1 < t
    · refine ⟨L.length, by simp [h1], le_rfl, fun i h _ => ?_, fun i h h' => by omega⟩
      exact lt_of_le_of_lt (hs.le (by omega) (by omega)) h1
    · simp only [if_neg h1]
      by_cases h2 : L[0].1 ≥ t
      · exact ⟨0, by simp [h2], splits_of hs hpos (fun h => by omega) h2⟩
      · simp only [if_neg h2]
        have h2' := not_le.1 h2
        have : 0 < L.length - 1 := by
          by_contra hc
          have : L.length - 1 = 0 := by omega
          simp only [this] at h1
          exact h1 h2'
        obtain ⟨idx, h, -, h'⟩ := bracketLoop_spec L t hs _ 0 (L.length - 1) (by omega) this le_rfl h2' (not_lt.1 h1)
        exact ⟨idx, h, h'⟩

theorem splits_unique {L : List (K × K)} {t : K} {i j : Nat} (hi : Splits L t i) (hj : Splits L t j) : i = j := by
  obtain ⟨hi1, hi2, hi3⟩ := hi
  obtain ⟨hj1, hj2, hj3⟩ := hj
  rcases Nat.lt_trichotomy i j with h | h | h
  · exact absurd (hj2 i (by omega) h) (not_lt.2 (hi3 i (by omega) le_rfl))
  · exact h
  · exact absurd (hi2 j (by omega) h) (not_lt.2 (hj3 j (by omega) le_rfl))

theorem bracket_eq (L : List (K × K)) (t : K) (hs : Sorted L) {idx : Nat} (h : Splits L t idx) :
    bracket L t = .ok idx := by
  obtain ⟨j, hj, hsj⟩ := bracket_splits L t hs
  rw [hj, splits_unique hsj h]

/-- What the proofs need of `almost_equal`. -/
def Refl (ae : Nat → K → K → Bool) : Prop := ∀ n a, ae n a a = true

theorem sorted_take_append {L : List (K × K)} (hs : Sorted L) {t v : K} {idx : Nat} (h : Splits L t idx) :
    Sorted (L.take idx ++ [(t, v)]) := by
  unfold Sorted
  rw [List.pairwise_append]
  refine ⟨hs.sublist (List.take_sublist _ _), by simp, ?_⟩
  intro a ha b hb
  simp at hb; subst hb
  obtain ⟨i, hi, rfl⟩ := List.getElem_of_mem ha
  simp at hi
  rw [List.getElem_take]
  exact h.2.1 i hi.2 hi.1

theorem addValue_spec (ae : Nat → K → K → Bool) (hae : Refl ae) (h : History K) (t v : K)
    (hs : Sorted h.L) (hb : ∀ p ∈ h.L, p.1 ≤ t) :
    ∃ idx, Splits h.L t idx ∧ h.L.length - 1 ≤ idx ∧
      addValue ae h t v = .ok { h with L := h.L.take idx ++ [(t, v)] } := by
  obtain ⟨idx, hi, hsp⟩ := bracket_splits h.L t hs
  have hidx : h.L.length - 1 ≤ idx := by
    by_contra hc
    have h1 : idx < h.L.length - 1 := by omega
    have h2 := hsp.2.2 idx (by omega) le_rfl
    have h3 := hs.lt (i := idx) (j := h.L.length - 1) (by omega) h1
    have h4 := hb _ (List.getElem_mem (l := h.L) (n := h.L.length - 1) (by omega))
    exact absurd (lt_of_le_of_lt h2 h3) (not_lt.2 h4)
  refine ⟨idx, hsp, hidx, ?_⟩
  simp only [addValue, hi, bind, Except.bind, pure, Except.pure]
  by_cases he : idx = h.L.length
  · simp [he]
  · have hlt : idx < h.L.length := lt_of_le_of_ne hsp.1 he
    have heq : (h.L[idx]).1 = t := le_antisymm (hb _ (List.getElem_mem _)) (hsp.2.2 idx hlt le_rfl)
    simp only [ne_eq, he, not_false_eq_true, if_true, getUB_eq h.L idx hlt, heq, hae 4 t]
    congr 2
    have : idx = h.L.length - 1 := by omega
    rw [List.set_eq_take_append_cons_drop, if_pos hlt, List.drop_eq_nil_of_le (by omega)]

/-- Invariant of the histories that can be observed. -/
structure Inv (h : History K) : Prop where
  sorted : Sorted h.L
  oldest_le : ∀ p ∈ h.L, h.oldest ≤ p.1
  window : ∀ p ∈ h.L, p.1 - h.oldest ≤ h.Tmax

theorem currentTime_append (h : History K) (l : List (K × K)) (p : K × K) (hL : h.L = l ++ [p]) :
    h.currentTime = p.1 := by
  simp [currentTime, hL]

theorem interpolate_ok (L : List (K × K)) (hne : L ≠ []) (idx : Nat) (t : K) :
    ∃ v, interpolate L idx t = .ok v := by
  have hpos := List.length_pos_of_ne_nil hne
  unfold interpolate
  split_ifs with h1
  · exact ⟨L[0].2, by simp [getUB_eq L 0 hpos, bind, Except.bind, pure, Except.pure]⟩
  · have h0 : idx - 1 < L.length := by omega
    have h2 : idx < L.length := by omega
    simp only [getUB_eq L _ h0, getUB_eq L _ h2, bind, Except.bind, pure, Except.pure]
    split_ifs <;> exact ⟨_, rfl⟩

theorem splits_drop {L : List (K × K)} {o : K} {idx : Nat} (h : Splits L o idx) :
    ∀ p ∈ L.drop idx, o ≤ p.1 := by
  intro p hp
  obtain ⟨i, hi, rfl⟩ := List.getElem_of_mem hp
  rw [List.getElem_drop]
  simp at hi
  exact h.2.2 _ (by omega) (by omega)

/-- What `shift` does to a sorted history that ends with `(t, v)`. -/
theorem shift_spec (ae : Nat → K → K → Bool) (hae : Refl ae) (h : History K) (l : List (K × K)) (t v : K)
    (hL : h.L = l ++ [(t, v)]) (hs : Sorted h.L) (hT : 0 ≤ h.Tmax) :
    (t - h.oldest < h.Tmax ∧ shift ae h = .ok h) ∨
    (h.Tmax ≤ t - h.oldest ∧ ∃ idx vmin, Splits h.L (t - h.Tmax) idx ∧ idx ≤ l.length ∧
      interpolate h.L 1 (t - h.Tmax) = .ok vmin ∧
      ((shift ae h = .ok { h with L := h.L.drop idx, oldest := t - h.Tmax }) ∨
       ((∀ p ∈ h.L.drop idx, t - h.Tmax < p.1) ∧
        shift ae h = .ok { h with L := (t - h.Tmax, vmin) :: h.L.drop idx, oldest := t - h.Tmax }))) := by
  have hct := currentTime_append h l (t, v) hL
  simp only at hct
  by_cases hc : t - h.oldest < h.Tmax
  · left
    refine ⟨hc, ?_⟩
    simp only [shift, hct, ge_iff_le, if_neg (not_le.2 hc)]; rfl
  · right
    refine ⟨not_lt.1 hc, ?_⟩
    have hne : h.L ≠ [] := by simp [hL]
    obtain ⟨vmin, hv⟩ := interpolate_ok h.L hne 1 (t - h.Tmax)
    obtain ⟨idx, hi, hsp⟩ := bracket_splits h.L (t - h.Tmax) hs
    have hlen : h.L.length = l.length + 1 := by simp [hL]
    have hidx : idx ≤ l.length := by
      by_contra hcon
      have := hsp.2.1 l.length (by omega) (by omega)
      have e : h.L[l.length]'(by omega) = (t, v) := by simp [hL]
      rw [e] at this
      simp at this
      linarith
    refine ⟨idx, vmin, hsp, hidx, hv, ?_⟩
    have hlt : idx < h.L.length := by omega
    have hf : getUB (h.L.drop idx) 0 = .ok (h.L[idx]) := by
      rw [getUB_eq _ 0 (by simp; omega)]; simp
    have e : shift ae h = if ae 32 (h.L[idx]).1 (t - h.Tmax) then
        .ok { h with L := h.L.drop idx, oldest := t - h.Tmax }
        else .ok { h with L := (t - h.Tmax, vmin) :: h.L.drop idx, oldest := t - h.Tmax } := by
      simp only [shift, hct, ge_iff_le, if_pos (not_lt.1 hc), hv, hi, hf, bind, Except.bind, pure, Except.pure]
    rw [e]
    by_cases hcase : ae 32 (h.L[idx]).1 (t - h.Tmax) = true
    · left; simp [hcase]
    · right
      refine ⟨?_, by simp [hcase]⟩
      have hge := hsp.2.2 idx hlt le_rfl
      have hgt : t - h.Tmax < (h.L[idx]).1 := by
        refine lt_of_le_of_ne hge (fun heq => hcase ?_)
        rw [← heq]; exact hae _ _
      intro p hp
      obtain ⟨i, hi', rfl⟩ := List.getElem_of_mem hp
      rw [List.getElem_drop]
      simp at hi'
      exact lt_of_lt_of_le hgt (hs.le (by omega) (by omega))

theorem shift_inv (ae : Nat → K → K → Bool) (hae : Refl ae) (h : History K) (l : List (K × K)) (t v : K)
    (hL : h.L = l ++ [(t, v)]) (hs : Sorted h.L) (hT : 0 ≤ h.Tmax) (ho : ∀ p ∈ h.L, h.oldest ≤ p.1) :
    ∃ h' l', shift ae h = .ok h' ∧ h'.L = l' ++ [(t, v)] ∧ h'.Tmax = h.Tmax ∧ Inv h' ∧
      ∀ p ∈ l', p ∈ l ∨ p.1 = t - h.Tmax := by
  have hle : ∀ p ∈ h.L, p.1 ≤ t := by
    intro p hp
    rw [hL] at hp hs
    rcases List.mem_append.1 hp with hp | hp
    · exact ((List.pairwise_append.1 hs).2.2 p hp (t, v) (by simp)).le
    · simp at hp; subst hp; exact le_rfl
  rcases shift_spec ae hae h l t v hL hs hT with ⟨h1, h2⟩ | ⟨h1, idx, vmin, hsp, hidx, -, h2 | ⟨h3, h2⟩⟩
  · exact ⟨h, l, h2, hL, rfl, ⟨hs, ho, fun p hp => by have := hle p hp; linarith⟩, fun p hp => Or.inl hp⟩
  · refine ⟨_, l.drop idx, h2, ?_, rfl, ⟨hs.sublist (List.drop_sublist _ _), ?_, ?_⟩,
      fun p hp => Or.inl (List.mem_of_mem_drop hp)⟩
    · simp only [hL]; rw [List.drop_append_of_le_length hidx]
    · exact splits_drop hsp
    · intro p hp
      have := hle p (List.mem_of_mem_drop hp)
      simp only; linarith
  · refine ⟨_, (t - h.Tmax, vmin) :: l.drop idx, h2, ?_, rfl, ⟨?_, ?_, ?_⟩, fun p hp => ?_⟩
    · simp only [hL]; rw [List.drop_append_of_le_length hidx]; rfl
    · exact List.pairwise_cons.2 ⟨fun p hp => h3 p hp, hs.sublist (List.drop_sublist _ _)⟩
    · intro p hp
      rcases List.mem_cons.1 hp with rfl | hp
      · exact le_rfl
      · exact (h3 p hp).le
    · intro p hp
      rcases List.mem_cons.1 hp with rfl | hp
      · simp; linarith
      · have := hle p (List.mem_of_mem_drop hp)
        simp only; linarith
    · rcases List.mem_cons.1 hp with rfl | hp
      · exact Or.inr rfl
      · exact Or.inl (List.mem_of_mem_drop hp)

/-- The date under which `record` stores `t`. -/
def storedDate (ae : Nat → K → K → Bool) (h : History K) (t : K) : K :=
  match h.L.getLast? with
  | some b => if ae 4 t b.1 then b.1 else t
  | none => t

theorem record_ok (ae : Nat → K → K → Bool) (hae : Refl ae) (h : History K) (hi : Inv h) (hT : 0 ≤ h.Tmax)
    (t v : K) (ht : ∀ b, h.L.getLast? = some b → b.1 ≤ storedDate ae h t) :
    ∃ h1 h' l', addValue ae (updateOldest h (storedDate ae h t)) (storedDate ae h t) v = .ok h1 ∧
      shift ae h1 = .ok h' ∧
      record ae h t v = .ok h' ∧ h'.L = l' ++ [(storedDate ae h t, v)] ∧ h'.Tmax = h.Tmax ∧ Inv h' ∧
      ∀ p ∈ l', p ∈ h.L ∨ p.1 = storedDate ae h t - h.Tmax := by
  have hrec : record ae h t v = (do
      let h ← addValue ae (updateOldest h (storedDate ae h t)) (storedDate ae h t) v
      shift ae h) := by
    unfold record
    cases hb : h.L.getLast? with
    | none => simp only [storedDate, hb]
    | some b =>
      have h1 := ht b hb
      simp only [storedDate, hb] at h1 ⊢
      rw [if_neg (not_lt.2 h1)]
  set s := storedDate ae h t with hsd
  have hle : ∀ p ∈ h.L, p.1 ≤ s := by
    intro p hp
    cases hb : h.L.getLast? with
    | none => rw [List.getLast?_eq_none_iff] at hb; simp [hb] at hp
    | some b =>
      refine le_trans ?_ (ht b hb)
      obtain ⟨l, hl⟩ := List.getLast?_eq_some_iff.1 hb
      have hs := hi.sorted
      rw [hl] at hp hs
      rcases List.mem_append.1 hp with hp | hp
      · exact ((List.pairwise_append.1 hs).2.2 p hp b (by simp)).le
      · simp at hp; subst hp; exact le_rfl
  obtain ⟨idx, hsp, hidx, hadd⟩ := addValue_spec ae hae (updateOldest h s) s v hi.sorted hle
  have hsp' : Splits h.L s idx := hsp
  set h1 : History K := { updateOldest h s with L := (updateOldest h s).L.take idx ++ [(s, v)] } with hh1
  have hL1 : h1.L = h.L.take idx ++ [(s, v)] := rfl
  have hs1 : Sorted h1.L := sorted_take_append hi.sorted hsp'
  have ho1 : ∀ p ∈ h1.L, h1.oldest ≤ p.1 := by
    have e : h1.oldest = min (if h.L.isEmpty then s else h.oldest) s := rfl
    intro p hp
    rw [e]
    rw [hL1] at hp
    rcases List.mem_append.1 hp with hp | hp
    · have hp' := List.mem_of_mem_take hp
      have : h.L.isEmpty = false := by
        cases hc : h.L with
        | nil => simp [hc] at hp'
        | cons a l => rfl
      rw [this]
      exact (min_le_left _ _).trans (hi.oldest_le p hp')
    · simp at hp; subst hp; exact min_le_right _ _
  obtain ⟨h', l', e1, e2, e3, e4, e5⟩ := shift_inv ae hae h1 (h.L.take idx) s v hL1 hs1 hT ho1
  refine ⟨h1, h', l', hadd, e1, ?_, e2, e3, e4, fun p hp => ?_⟩
  swap
  · rcases e5 p hp with h | h
    · exact Or.inl (List.mem_of_mem_take h)
    · exact Or.inr h
  rw [hrec, hadd]; exact e1

theorem inv_new (Tmax : K) : Inv (new Tmax) := by
  constructor <;> simp [new, Sorted]

theorem inv_reset (h : History K) : Inv (reset h) := by
  constructor <;> simp [reset, Sorted]

theorem interpolate_mid (L : List (K × K)) (idx : Nat) (h : idx + 1 < L.length) (t : K) :
    interpolate L (idx + 1) t = .ok (if |t - L[idx].1| < eps K then L[idx].2
      else if |t - (L[idx + 1]).1| < eps K then (L[idx + 1]).2
      else (t - L[idx].1) / ((L[idx + 1]).1 - L[idx].1) * ((L[idx + 1]).2 - L[idx].2) + L[idx].2) := by
  unfold interpolate
  rw [if_neg (by omega)]
  simp only [Nat.add_sub_cancel, getUB_eq L idx (by omega), getUB_eq L (idx + 1) h, bind, Except.bind, pure,
    Except.pure]
  split_ifs <;> rfl

theorem interpolate_zero (L : List (K × K)) (h : 0 < L.length) (t : K) :
    interpolate L 0 t = .ok (L[0]).2 := by
  simp [interpolate, getUB_eq L 0 h, bind, Except.bind, pure, Except.pure]

theorem eps_pos : (0 : K) < eps K := by unfold eps; positivity

theorem value_inside (h : History K) (tau : K) (h0 : 0 ≤ tau) (h1 : tau ≤ h.Tmax) (hne : h.L ≠ [])
    (h2 : tau = h.Tmax ∨ eps K ≤ h.Tmax - tau) : value h tau = getValue h tau := by
  have e : (if |tau - h.Tmax| < eps K then h.Tmax else tau) = tau := by
    rcases h2 with h2 | h2
    · simp [h2]
    · rw [if_neg]
      rw [abs_sub_comm, abs_of_nonneg (by linarith)]
      exact not_lt.2 h2
  unfold value
  rw [e]
  simp only [gt_iff_lt, if_neg (not_lt.2 h1), if_neg (not_lt.2 h0)]
  rw [if_neg (by simpa using hne)]

/-- Value at a recorded date, when the previous sample is at least 1E-12 older. -/
theorem getValue_sample (h : History K) (hs : Sorted h.L) (tau : K) (i : Nat) (hi : i < h.L.length)
    (hd : h.currentTime - tau = (h.L[i]).1)
    (hgap : ∀ (hp : 0 < i), eps K ≤ (h.L[i]).1 - (h.L[i - 1]).1) : getValue h tau = .ok (h.L[i]).2 := by
  have hsp : Splits h.L (h.L[i]).1 i :=
    splits_of hs hi (fun hp => hs.lt hi (by omega)) le_rfl
  simp only [getValue, hd, bracket_eq h.L _ hs hsp, bind, Except.bind]
  cases i with
  | zero => rw [interpolate_zero _ hi]
  | succ j =>
    have hg := hgap (by omega)
    simp only [Nat.add_sub_cancel] at hg
    rw [interpolate_mid _ _ hi]
    have hlt := hs.lt hi (Nat.lt_succ_self j)
    rw [if_neg, if_pos]
    · simp [eps_pos]
    · rw [abs_of_pos (by linarith)]; exact not_lt.2 hg

theorem getLast_getElem {α : Type} (L l : List α) (x : α) (hL : L = l ++ [x]) :
    ∃ h : l.length < L.length, L[l.length] = x := by
  subst hL; simp

end Xdyn.History
