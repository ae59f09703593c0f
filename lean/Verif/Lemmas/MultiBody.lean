import Verif.Model.MultiBody
import Mathlib.Tactic.Linarith

/-
Lemmas on the evaluation of several bodies: the programs of Model/MultiBody read and write the
thirteen values of one body.
-/

namespace Xdyn.Multi

open Blocked Body Sim

variable {K : Type} [Field K] [LinearOrder K] [IsStrictOrderedRing K]

/-- Two runs: same error, or two results that are related. -/
def ERel {α β : Type} (R : α → β → Prop) : Except Err α → Except Err β → Prop
  | .ok a, .ok b => R a b
  | .error e, .error e' => e = e'
  | _, _ => False

theorem ERel.refl {α : Type} {R : α → α → Prop} (h : ∀ a, R a a) (p : Except Err α) : ERel R p p := by
  cases p with
  | ok a => exact h a
  | error e => exact rfl

theorem ERel.of_eq {α : Type} {p p' : Except Err α} (h : p = p') : ERel (· = ·) p p' := by
  subst h; exact ERel.refl (fun _ => rfl) p

theorem ERel.bind {α β α' β' : Type} {R : α → α' → Prop} {S : β → β' → Prop}
    {p : Except Err α} {p' : Except Err α'} {f : α → Except Err β} {f' : α' → Except Err β'}
    (h : ERel R p p') (hf : ∀ a a', R a a' → ERel S (f a) (f' a')) :
    ERel S (p >>= f) (p' >>= f') := by
  cases p with
  | ok a =>
    cases p' with
    | ok a' => exact hf a a' h
    | error e => exact h.elim
  | error e =>
    cases p' with
    | ok a' => exact h.elim
    | error e' => cases (show e = e' from h); exact rfl

theorem ERel.mono {α β : Type} {R S : α → β → Prop} {p : Except Err α} {p' : Except Err β}
    (h : ERel R p p') (hRS : ∀ a b, R a b → S a b) : ERel S p p' := by
  cases p <;> cases p' <;> first | exact h | exact hRS _ _ h

theorem ERel.ok {α β : Type} {R : α → β → Prop} {p : Except Err α} {p' : Except Err β} {a : α} {a' : β}
    (h : ERel R p p') (hp : p = .ok a) (hp' : p' = .ok a') : R a a' := by
  subst hp hp'; exact h

theorem ERel.foldlM {α β γ : Type} {R : α → β → Prop} {f : α → γ → Except Err α} {g : β → γ → Except Err β} :
    ∀ (l : List γ) {a : α} {b : β}, R a b → (∀ a b c, c ∈ l → R a b → ERel R (f a c) (g b c)) →
      ERel R (l.foldlM f a) (l.foldlM g b)
  | [], _, _, h, _ => h
  | c :: l, a, b, h, hf => by
    rw [List.foldlM_cons, List.foldlM_cons]
    exact ERel.bind (hf a b c List.mem_cons_self h) fun a' b' h' =>
      ERel.foldlM l h' fun a b c hc h => hf a b c (List.mem_cons_of_mem _ hc) h

/-- The same thirteen values for body `i`. -/
def SameBlock (i : Nat) (x x' : List K) : Prop := ∀ j, j < 13 → x[i * 13 + j]? = x'[i * 13 + j]?

omit [Field K] [LinearOrder K] [IsStrictOrderedRing K] in
theorem getUB_same {x x' : List K} {p : Nat} (h : x[p]? = x'[p]?) : getUB x p = getUB x' p := by
  simp only [getUB, h]

omit [Field K] [LinearOrder K] [IsStrictOrderedRing K] in
theorem SameBlock.getUB {i : Nat} {x x' : List K} (h : SameBlock i x x') {p : Nat} (j : Nat) (hj : j < 13)
    (hp : p = i * 13 + j) : getUB x p = getUB x' p := by
  subst hp; exact getUB_same (h j hj)

/-- Same length and same values at the positions of `S`. -/
def SameAt (S : Nat → Prop) (x x' : List K) : Prop := x.length = x'.length ∧ ∀ p, S p → x[p]? = x'[p]?

omit [Field K] [LinearOrder K] [IsStrictOrderedRing K] in
theorem setUB_sameAt {S : Nat → Prop} {x x' : List K} (h : SameAt S x x') (p : Nat) (v : K) :
    ERel (SameAt fun q => S q ∨ q = p) (setUB x p v) (setUB x' p v) := by
  unfold setUB
  rw [h.1]
  split
  · rename_i hp
    refine ⟨by simp [h.1], fun q hq => ?_⟩
    rw [List.getElem?_set, List.getElem?_set]
    by_cases hpq : p = q
    · subst hpq
      rw [if_pos rfl, if_pos rfl, h.1]
    · rw [if_neg hpq, if_neg hpq]
      rcases hq with hq | hq
      · exact h.2 q hq
      · exact absurd hq.symm hpq
  · exact rfl

omit [Field K] [LinearOrder K] [IsStrictOrderedRing K] in
theorem setUB_sameBlock {i : Nat} {x x' : List K} (h : SameBlock i x x') {p j : Nat} (hj : j < 13)
    (hp : p = i * 13 + j) (v : K) : ERel (SameBlock i) (setUB x p v) (setUB x' p v) := by
  subst hp
  have h0 := h j hj
  unfold setUB
  have hl : (i * 13 + j < x.length) ↔ (i * 13 + j < x'.length) := by
    have e1 : ∀ l : List K, i * 13 + j < l.length ↔ (l[i * 13 + j]?).isSome = true := by
      intro l; simp
    rw [e1, e1, h0]
  by_cases hx : i * 13 + j < x.length
  · rw [if_pos hx, if_pos (hl.mp hx)]
    intro k hk
    rw [List.getElem?_set, List.getElem?_set]
    by_cases hjk : i * 13 + j = i * 13 + k
    · rw [if_pos hjk, if_pos hjk, if_pos hx, if_pos (hl.mp hx)]
    · rw [if_neg hjk, if_neg hjk]; exact h k hk
  · rw [if_neg hx, if_neg (fun h' => hx (hl.mpr h'))]
    exact rfl

theorem stateIndex_eq (i : Nat) (s : BlockableState) : ∃ j, j < 13 ∧ stateIndex i s = i * 13 + j := by
  cases s
  · exact ⟨3, by decide, rfl⟩
  · exact ⟨4, by decide, rfl⟩
  · exact ⟨5, by decide, rfl⟩
  · exact ⟨6, by decide, rfl⟩
  · exact ⟨7, by decide, rfl⟩
  · exact ⟨8, by decide, rfl⟩

omit [Field K] [IsStrictOrderedRing K] in
theorem forceStates_same {b : BlockedDof K} {x x' : List K} (h : SameBlock b.bodyIdx x x') (t : K) :
    ERel (SameBlock b.bodyIdx) (forceStates b x t) (forceStates b x' t) := by
  refine ERel.foldlM _ h fun a b' c _ hab => ?_
  unfold forceOne
  cases b.dof c with
  | none => exact hab
  | some i =>
    simp only
    split
    · cases i.f t with
      | error e => cases e <;> exact rfl
      | ok v =>
        obtain ⟨j, hj, e⟩ := stateIndex_eq b.bodyIdx c
        exact setUB_sameBlock hab hj e v
    · exact hab

omit [Field K] [IsStrictOrderedRing K] in
theorem forceStateDerivatives_sameAt {S : Nat → Prop} (b : BlockedDof K) {x x' : List K} (h : SameAt S x x') (t : K) :
    ERel (SameAt S) (forceStateDerivatives b x t) (forceStateDerivatives b x' t) := by
  refine ERel.foldlM _ h fun a b' c _ hab => ?_
  unfold forceOne
  cases b.dof c with
  | none => exact hab
  | some i =>
    simp only
    split
    · cases i.df t with
      | error e => cases e <;> exact rfl
      | ok v => exact (setUB_sameAt hab _ v).mono fun _ _ h => ⟨h.1, fun p hp => h.2 p (Or.inl hp)⟩
    · exact hab

omit [LinearOrder K] [IsStrictOrderedRing K] in
theorem quatOf_same {i : Nat} {x x' : List K} (h : SameBlock i x x') : quatOf x i = quatOf x' i := by
  simp only [quatOf, h.getUB (p := QRIDX i) 9 (by decide) rfl, h.getUB (p := QIIDX i) 10 (by decide) rfl,
    h.getUB (p := QJIDX i) 11 (by decide) rfl, h.getUB (p := QKIDX i) 12 (by decide) rfl]

omit [LinearOrder K] [IsStrictOrderedRing K] in
theorem getOrigin_same {i : Nat} {x x' : List K} (h : SameBlock i x x') : getOrigin x i = getOrigin x' i := by
  simp only [getOrigin, h.getUB (p := XIDX i) 0 (by decide) rfl, h.getUB (p := YIDX i) 1 (by decide) rfl,
    h.getUB (p := ZIDX i) 2 (by decide) rfl]

omit [LinearOrder K] [IsStrictOrderedRing K] in
theorem uvwpqr_same {i : Nat} {x x' : List K} (h : SameBlock i x x') : uvwpqr x i = uvwpqr x' i := by
  simp only [uvwpqr, h.getUB (p := UIDX i) 3 (by decide) rfl, h.getUB (p := VIDX i) 4 (by decide) rfl,
    h.getUB (p := WIDX i) 5 (by decide) rfl, h.getUB (p := PIDX i) 6 (by decide) rfl,
    h.getUB (p := QIDX i) 7 (by decide) rfl, h.getUB (p := RIDX i) 8 (by decide) rfl]

omit [LinearOrder K] [IsStrictOrderedRing K] in
/-- The derivatives of the thirteen states of the body are written, whatever was there before. -/
theorem unforced_same {Minv : Mat6 K} {F : Vec6 K} {R : Mat3 K} {i : Nat} {x x' dx dx' : List K} {S : Nat → Prop}
    (hx : SameBlock i x x') (h : SameAt S dx dx') :
    ERel (SameAt fun p => S p ∨ ∃ j, j < 13 ∧ p = i * 13 + j) (unforcedDerivatives Minv F R x dx i)
      (unforcedDerivatives Minv F R x' dx' i) := by
  unfold unforcedDerivatives
  simp only [quatOf_same hx, hx.getUB (p := UIDX i) 3 (by decide) rfl, hx.getUB (p := VIDX i) 4 (by decide) rfl,
    hx.getUB (p := WIDX i) 5 (by decide) rfl, hx.getUB (p := PIDX i) 6 (by decide) rfl,
    hx.getUB (p := QIDX i) 7 (by decide) rfl, hx.getUB (p := RIDX i) 8 (by decide) rfl]
  refine ERel.bind (setUB_sameAt h _ _) fun _ _ h => ?_
  refine ERel.bind (setUB_sameAt h _ _) fun _ _ h => ?_
  refine ERel.bind (setUB_sameAt h _ _) fun _ _ h => ?_
  refine ERel.bind (setUB_sameAt h _ _) fun _ _ h => ?_
  refine ERel.bind (setUB_sameAt h _ _) fun _ _ h => ?_
  refine ERel.bind (setUB_sameAt h _ _) fun _ _ h => ?_
  refine ERel.bind (ERel.refl (fun _ => rfl) _) fun u _ e => ?_
  cases e
  refine ERel.bind (ERel.refl (fun _ => rfl) _) fun v _ e => ?_
  cases e
  refine ERel.bind (ERel.refl (fun _ => rfl) _) fun w _ e => ?_
  cases e
  refine ERel.bind (setUB_sameAt h _ _) fun _ _ h => ?_
  refine ERel.bind (setUB_sameAt h _ _) fun _ _ h => ?_
  refine ERel.bind (setUB_sameAt h _ _) fun _ _ h => ?_
  refine ERel.bind (ERel.refl (fun _ => rfl) _) fun q1 _ e => ?_
  cases e
  refine ERel.bind (ERel.refl (fun _ => rfl) _) fun p _ e => ?_
  cases e
  refine ERel.bind (ERel.refl (fun _ => rfl) _) fun q _ e => ?_
  cases e
  refine ERel.bind (ERel.refl (fun _ => rfl) _) fun r _ e => ?_
  cases e
  refine ERel.bind (setUB_sameAt h _ _) fun _ _ h => ?_
  refine ERel.bind (setUB_sameAt h _ _) fun _ _ h => ?_
  refine ERel.bind (setUB_sameAt h _ _) fun _ _ h => ?_
  refine (setUB_sameAt h _ _).mono fun _ _ h => ?_
  refine ⟨h.1, fun p hp => h.2 p ?_⟩
  rcases hp with hp | ⟨j, hj, rfl⟩
  · simp only [hp, true_or]
  · simp only [UIDX, VIDX, WIDX, PIDX, QIDX, RIDX, XIDX, YIDX, ZIDX, QRIDX, QIIDX, QJIDX, QKIDX, nbOfStatesPerBody]
    omega

omit [IsStrictOrderedRing K] in
theorem stateDerivatives_same {b : BlockedDof K} {Minv : Mat6 K} {F : Vec6 K} {R : Mat3 K} {i : Nat}
    {x x' dx dx' : List K} {S : Nat → Prop} {t : K} (hx : SameBlock i x x') (h : SameAt S dx dx') :
    ERel (SameAt fun p => S p ∨ ∃ j, j < 13 ∧ p = i * 13 + j) (stateDerivatives b Minv F R x dx t i)
      (stateDerivatives b Minv F R x' dx' t i) := by
  unfold stateDerivatives
  exact ERel.bind (unforced_same hx h) fun _ _ h => forceStateDerivatives_sameAt b h t

/-! ### Nothing else is written -/

omit [Field K] [LinearOrder K] [IsStrictOrderedRing K] in
theorem setUB_other {x x' : List K} {p : Nat} {v : K} (h : setUB x p v = .ok x') (q : Nat) (hq : q ≠ p) :
    x'[q]? = x[q]? := by
  unfold setUB at h
  split at h
  · cases h; rw [List.getElem?_set, if_neg (fun e => hq e.symm)]
  · cases h

theorem bind_ok {α β : Type} {p : Except Err α} {f : α → Except Err β} {b : β} (h : (p >>= f) = .ok b) :
    ∃ a, p = .ok a ∧ f a = .ok b := by
  cases p with
  | ok a => exact ⟨a, rfl, h⟩
  | error e => cases h

omit [LinearOrder K] [IsStrictOrderedRing K] in
theorem unforced_other {Minv : Mat6 K} {F : Vec6 K} {R : Mat3 K} {i k : Nat} {x dx dx' : List K} (hik : i ≠ k)
    (h : unforcedDerivatives Minv F R x dx i = .ok dx') : SameBlock k dx dx' := by
  intro j hj
  unfold unforcedDerivatives at h
  have hne : ∀ a, a < 13 → k * 13 + j ≠ i * 13 + a := by intro a ha; omega
  obtain ⟨_, h0, h⟩ := bind_ok h
  obtain ⟨_, h1, h⟩ := bind_ok h
  obtain ⟨_, h2, h⟩ := bind_ok h
  obtain ⟨_, h3, h⟩ := bind_ok h
  obtain ⟨_, h4, h⟩ := bind_ok h
  obtain ⟨_, h5, h⟩ := bind_ok h
  obtain ⟨_, _, h⟩ := bind_ok h
  obtain ⟨_, _, h⟩ := bind_ok h
  obtain ⟨_, _, h⟩ := bind_ok h
  obtain ⟨_, h6, h⟩ := bind_ok h
  obtain ⟨_, h7, h⟩ := bind_ok h
  obtain ⟨_, h8, h⟩ := bind_ok h
  obtain ⟨_, _, h⟩ := bind_ok h
  obtain ⟨_, _, h⟩ := bind_ok h
  obtain ⟨_, _, h⟩ := bind_ok h
  obtain ⟨_, _, h⟩ := bind_ok h
  obtain ⟨_, h9, h⟩ := bind_ok h
  obtain ⟨_, h10, h⟩ := bind_ok h
  obtain ⟨_, h11, h⟩ := bind_ok h
  rw [setUB_other h _ (hne 12 (by decide)), setUB_other h11 _ (hne 11 (by decide)),
    setUB_other h10 _ (hne 10 (by decide)), setUB_other h9 _ (hne 9 (by decide)),
    setUB_other h8 _ (hne 2 (by decide)), setUB_other h7 _ (hne 1 (by decide)),
    setUB_other h6 _ (hne 0 (by decide)), setUB_other h5 _ (hne 8 (by decide)),
    setUB_other h4 _ (hne 7 (by decide)), setUB_other h3 _ (hne 6 (by decide)),
    setUB_other h2 _ (hne 5 (by decide)), setUB_other h1 _ (hne 4 (by decide)),
    setUB_other h0 _ (hne 3 (by decide))]

omit [Field K] [IsStrictOrderedRing K] in
theorem forceStateDerivatives_other {b : BlockedDof K} {dx dx' : List K} {t : K} {k : Nat} (hk : b.bodyIdx ≠ k)
    (h : forceStateDerivatives b dx t = .ok dx') : SameBlock k dx dx' := by
  have key : ∀ (l : List BlockableState) (dx dx' : List K), l.foldlM (forceOne Interp.df b t) dx = .ok dx' →
      SameBlock k dx dx' := by
    intro l
    induction l with
    | nil => intro dx dx' h; cases h; intro j _; rfl
    | cons s l ih =>
      intro dx dx' h
      rw [List.foldlM_cons] at h
      obtain ⟨d, h1, h2⟩ := bind_ok h
      have h3 := ih d dx' h2
      intro j hj
      rw [← h3 j hj]
      unfold forceOne at h1
      split at h1
      · cases h1; rfl
      · split at h1
        · split at h1
          · cases h1
          · cases h1
          · obtain ⟨a, ha, e⟩ := stateIndex_eq b.bodyIdx s
            rw [setUB_other h1 _ (by omega)]
        · cases h1; rfl
  exact key _ dx dx' h

omit [Field K] [LinearOrder K] [IsStrictOrderedRing K] in
theorem setUB_length {x x' : List K} {p : Nat} {v : K} (h : setUB x p v = .ok x') : x'.length = x.length := by
  unfold setUB at h
  split at h
  · cases h; simp
  · cases h

omit [LinearOrder K] [IsStrictOrderedRing K] in
theorem unforced_length {Minv : Mat6 K} {F : Vec6 K} {R : Mat3 K} {i : Nat} {x dx dx' : List K}
    (h : unforcedDerivatives Minv F R x dx i = .ok dx') : dx'.length = dx.length := by
  unfold unforcedDerivatives at h
  obtain ⟨_, h0, h⟩ := bind_ok h
  obtain ⟨_, h1, h⟩ := bind_ok h
  obtain ⟨_, h2, h⟩ := bind_ok h
  obtain ⟨_, h3, h⟩ := bind_ok h
  obtain ⟨_, h4, h⟩ := bind_ok h
  obtain ⟨_, h5, h⟩ := bind_ok h
  obtain ⟨_, _, h⟩ := bind_ok h
  obtain ⟨_, _, h⟩ := bind_ok h
  obtain ⟨_, _, h⟩ := bind_ok h
  obtain ⟨_, h6, h⟩ := bind_ok h
  obtain ⟨_, h7, h⟩ := bind_ok h
  obtain ⟨_, h8, h⟩ := bind_ok h
  obtain ⟨_, _, h⟩ := bind_ok h
  obtain ⟨_, _, h⟩ := bind_ok h
  obtain ⟨_, _, h⟩ := bind_ok h
  obtain ⟨_, _, h⟩ := bind_ok h
  obtain ⟨_, h9, h⟩ := bind_ok h
  obtain ⟨_, h10, h⟩ := bind_ok h
  obtain ⟨_, h11, h⟩ := bind_ok h
  rw [setUB_length h, setUB_length h11, setUB_length h10, setUB_length h9, setUB_length h8, setUB_length h7,
    setUB_length h6, setUB_length h5, setUB_length h4, setUB_length h3, setUB_length h2, setUB_length h1,
    setUB_length h0]

omit [Field K] [IsStrictOrderedRing K] in
theorem forceStateDerivatives_length {b : BlockedDof K} {dx dx' : List K} {t : K}
    (h : forceStateDerivatives b dx t = .ok dx') : dx'.length = dx.length := by
  have key : ∀ (l : List BlockableState) (dx dx' : List K), l.foldlM (forceOne Interp.df b t) dx = .ok dx' →
      dx'.length = dx.length := by
    intro l
    induction l with
    | nil => intro dx dx' h; cases h; rfl
    | cons s l ih =>
      intro dx dx' h
      rw [List.foldlM_cons] at h
      obtain ⟨d, h1, h2⟩ := bind_ok h
      rw [ih d dx' h2]
      unfold forceOne at h1
      split at h1
      · cases h1; rfl
      · split at h1
        · split at h1
          · cases h1
          · cases h1
          · exact setUB_length h1
        · cases h1; rfl
  exact key _ dx dx' h

omit [IsStrictOrderedRing K] in
theorem stateDerivatives_length {b : BlockedDof K} {Minv : Mat6 K} {F : Vec6 K} {R : Mat3 K} {i : Nat}
    {x dx dx' : List K} {t : K} (h : stateDerivatives b Minv F R x dx t i = .ok dx') : dx'.length = dx.length := by
  unfold stateDerivatives at h
  obtain ⟨d, h1, h2⟩ := bind_ok h
  rw [forceStateDerivatives_length h2, unforced_length h1]

omit [IsStrictOrderedRing K] in
theorem stateDerivatives_other {b : BlockedDof K} {Minv : Mat6 K} {F : Vec6 K} {R : Mat3 K} {i k : Nat}
    {x dx dx' : List K} {t : K} (hb : b.bodyIdx = i) (hik : i ≠ k)
    (h : stateDerivatives b Minv F R x dx t i = .ok dx') : SameBlock k dx dx' := by
  unfold stateDerivatives at h
  obtain ⟨d, h1, h2⟩ := bind_ok h
  intro j hj
  rw [unforced_other hik h1 j hj, forceStateDerivatives_other (by rw [hb]; exact hik) h2 j hj]

/-! ### Maps -/

theorem find_set' {κ ν : Type} [LinearOrder κ] (m : StdMap κ ν) (k : κ) (v : ν) (k' : κ) :
    (m.set k v).find k' = if k' = k then some v else m.find k' := by
  induction m with
  | nil => simp [StdMap.set, StdMap.find]
  | cons p m ih =>
    obtain ⟨a, b⟩ := p
    unfold StdMap.set
    by_cases h1 : k < a
    · rw [if_pos h1]; simp only [StdMap.find]
    · rw [if_neg h1]
      by_cases h2 : k = a
      · rw [if_pos h2]; subst h2
        simp only [StdMap.find]
        by_cases h3 : k' = k <;> simp [h3]
      · rw [if_neg h2]
        simp only [StdMap.find, ih]
        by_cases h3 : k' = k
        · subst h3; simp [h2]
        · simp [h3]

omit [LinearOrder K] [IsStrictOrderedRing K] in
theorem frameOf_set (k : Kin K) (n : String) (F : Frame K) (m : String) (hn : n ≠ "NED") :
    frameOf (k.set n F) m = if m = n then some F else frameOf k m := by
  unfold frameOf
  rw [find_set']
  by_cases h : m = n
  · subst h; rw [if_neg hn, if_pos rfl, if_pos rfl]
  · rw [if_neg h, if_neg h]

omit [Field K] [LinearOrder K] [IsStrictOrderedRing K] in
theorem forceMap_find {α : Type} (f : Entry K → α) (l : List (Entry K)) (n : String) (m : StdMap String α) :
    (l.foldl (fun m e => m.set e.body.name (f e)) m).find n =
      match (l.filter (fun e => e.body.name = n)).getLast? with
      | some e => some (f e)
      | none => m.find n := by
  induction l generalizing m with
  | nil => simp
  | cons a l ih =>
    rw [List.foldl_cons, ih, List.filter_cons]
    by_cases h : a.body.name = n
    · simp only [h, decide_true, if_true]
      rw [List.getLast?_cons]
      cases (l.filter (fun e => e.body.name = n)).getLast? with
      | none => simp [find_set']
      | some e => simp
    · rw [if_neg (by simpa using h)]
      cases (l.filter (fun e => e.body.name = n)).getLast? with
      | none => simp [find_set', Ne.symm h]
      | some e => simp

end Xdyn.Multi
