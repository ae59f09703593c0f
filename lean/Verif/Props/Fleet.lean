import Verif.Model.Fleet
import Verif.Props.Captive
import Mathlib.Data.List.OfFn

/-! Property C178: bodies that do not interact move in a simulation of several bodies as each of them
does alone. -/

namespace Xdyn.Sim

open Blocked Body Spec Solver Multi

/-! ### One block of a vector -/

theorem getUB_emb {pre b post : List ℝ} {k j : Nat} (hp : pre.length = k * 13) (hb : b.length = 13) (hj : j < 13) :
    getUB (pre ++ b ++ post) (k * 13 + j) = getUB b j := by
  have : (pre ++ b ++ post)[k * 13 + j]? = b[j]? := by
    rw [List.append_assoc, List.getElem?_append_right (by omega), List.getElem?_append_left (by omega), hp]
    congr 1
    omega
  simp only [getUB, this]

theorem setUB_emb {pre b post : List ℝ} {k j : Nat} (v : ℝ) (hp : pre.length = k * 13) (hb : b.length = 13) (hj : j < 13) :
    setUB (pre ++ b ++ post) (k * 13 + j) v = .ok (pre ++ b.set j v ++ post) := by
  have h : k * 13 + j < (pre ++ b ++ post).length := by simp; omega
  rw [setUB, if_pos h, List.append_assoc, List.set_append_right _ _ (by omega), List.set_append_left _ _ (by omega), hp,
    List.append_assoc]
  congr 4
  omega

theorem quatOf_emb {pre b post : List ℝ} {k : Nat} (hp : pre.length = k * 13) (hb : b.length = 13) :
    quatOf (pre ++ b ++ post) k = quatOf b 0 := by
  have e := fun j hj => getUB_emb (post := post) (j := j) hp hb hj
  simp only [quatOf, QRIDX, QIIDX, QJIDX, QKIDX, nbOfStatesPerBody, e _ (show 9 < 13 by decide), e _ (show 10 < 13 by decide),
    e _ (show 11 < 13 by decide), e _ (show 12 < 13 by decide), Nat.zero_mul, Nat.zero_add]

theorem unforced_emb (Minv : Mat6 ℝ) (F : Vec6 ℝ) (R : Mat3 ℝ) (p u w : Vec3 ℝ) (q : Quat ℝ) {k : Nat} {preX postX preD postD : List ℝ}
    (hx : preX.length = k * 13) (hd : preD.length = k * 13) {d : List ℝ}
    (h : unforcedDerivatives Minv F R (vec13 p u w q) (List.replicate 13 0) 0 = .ok d) :
    unforcedDerivatives Minv F R (preX ++ vec13 p u w q ++ postX) (preD ++ List.replicate 13 0 ++ postD) k =
      .ok (preD ++ d ++ postD) := by
  rw [unforced_vec13] at h
  cases h
  unfold unforcedDerivatives
  generalize Minv.mulVec F = dX
  have e0 : quatOf (preX ++ vec13 p u w q ++ postX) k = .ok q := by rw [quatOf_emb hx rfl]; rfl
  have e := fun j hj => getUB_emb (post := postX) (j := j) hx (show (vec13 p u w q).length = 13 from rfl) hj
  have e1 : getUB (preX ++ vec13 p u w q ++ postX) (UIDX k) = .ok (u 0) := e 3 (by decide)
  have e2 : getUB (preX ++ vec13 p u w q ++ postX) (VIDX k) = .ok (u 1) := e 4 (by decide)
  have e3 : getUB (preX ++ vec13 p u w q ++ postX) (WIDX k) = .ok (u 2) := e 5 (by decide)
  have e4 : getUB (preX ++ vec13 p u w q ++ postX) (PIDX k) = .ok (w 0) := e 6 (by decide)
  have e5 : getUB (preX ++ vec13 p u w q ++ postX) (QIDX k) = .ok (w 1) := e 7 (by decide)
  have e6 : getUB (preX ++ vec13 p u w q ++ postX) (RIDX k) = .ok (w 2) := e 8 (by decide)
  simp only [e0, e1, e2, e3, e4, e5, e6, bind, Except.bind, pure, Except.pure]
  generalize R.mulVec ![u 0, u 1, u 2] = V
  generalize Quat.mul q ⟨0, w 0, w 1, w 2⟩ = D
  have g : ∀ (b : List ℝ) (v : ℝ) (j : Nat), b.length = 13 → j < 13 →
      setUB (preD ++ b ++ postD) (k * 13 + j) v = .ok (preD ++ b.set j v ++ postD) :=
    fun b v j hb hj => setUB_emb v hd hb hj
  have g0 : ∀ (b : List ℝ) (v : ℝ), b.length = 13 → setUB (preD ++ b ++ postD) (k * 13) v = .ok (preD ++ b.set 0 v ++ postD) :=
    fun b v hb => g b v 0 hb (by decide)
  simp only [UIDX, VIDX, WIDX, PIDX, QIDX, RIDX, XIDX, YIDX, ZIDX, QRIDX, QIIDX, QJIDX, QKIDX, nbOfStatesPerBody]
  simp only [g, g0, List.length_set, List.length_replicate, Nat.reduceLT]
  rfl

theorem uvwpqr_emb {pre b post : List ℝ} {k : Nat} (hp : pre.length = k * 13) (hb : b.length = 13) :
    uvwpqr (pre ++ b ++ post) k = uvwpqr b 0 := by
  have e := fun j hj => getUB_emb (post := post) (j := j) hp hb hj
  simp only [uvwpqr, UIDX, VIDX, WIDX, PIDX, QIDX, RIDX, nbOfStatesPerBody, e _ (show 3 < 13 by decide), e _ (show 4 < 13 by decide),
    e _ (show 5 < 13 by decide), e _ (show 6 < 13 by decide), e _ (show 7 < 13 by decide), e _ (show 8 < 13 by decide),
    Nat.zero_mul, Nat.zero_add]

theorem getOrigin_emb {pre b post : List ℝ} {k : Nat} (hp : pre.length = k * 13) (hb : b.length = 13) :
    getOrigin (pre ++ b ++ post) k = getOrigin b 0 := by
  have e := fun j hj => getUB_emb (post := post) (j := j) hp hb hj
  have e0 : getUB (pre ++ b ++ post) (k * 13) = getUB b 0 := e 0 (by decide)
  simp only [getOrigin, XIDX, YIDX, ZIDX, nbOfStatesPerBody, e0, e _ (show 1 < 13 by decide), e _ (show 2 < 13 by decide),
    Nat.zero_mul, Nat.zero_add]

theorem thirteen (x : List ℝ) (hx : x.length = 13) : ∃ p u w q, x = vec13 p u w q := by
  match x, hx with
  | [a, b, c, d, e, f, g, h, i, j, k, l, m], _ =>
    exact ⟨![a, b, c], ![d, e, f], ![g, h, i], ⟨j, k, l, m⟩, rfl⟩

theorem place_idx (k : Nat) (e : Entry ℝ) : (place k e).body.idx = k := rfl
theorem place_name (k : Nat) (e : Entry ℝ) : (place k e).body.name = e.body.name := rfl
theorem place_Minv (k : Nat) (e : Entry ℝ) : (place k e).body.Minv = e.body.Minv := rfl
theorem place_coriolis (k : Nat) (e : Entry ℝ) : (place k e).body.coriolis = e.body.coriolis := rfl

/-- A body as it is in a simulation where it is alone: it is the first body and it has not the name of the fixed frame. -/
structure Seated (e : Entry ℝ) : Prop where
  idx : e.body.idx = 0
  name : e.body.name ≠ "NED"
  seat : e.body.blocked.bodyIdx = 0 ∨ ∀ s, e.body.blocked.dof s = none

theorem Alone.seated {e : Entry ℝ} (he : Alone e) : Seated e := ⟨he.idx, he.name, Or.inr he.free⟩

/-- A body that does not interact with others: its force models use only the fixed frame and its own frames. -/
structure Independent (e : Entry ℝ) : Prop extends Seated e where
  forces : ∀ f ∈ e.forces, UsesOnly (fun n => n = "NED" ∨ OwnFrame e.body n) f
  controlled : ∀ f ∈ e.controlled, UsesOnlyC (fun n => n = "NED" ∨ OwnFrame e.body n) f

theorem stateIndex_emb (k : Nat) (s : BlockableState) : stateIndex k s = k * 13 + stateIndex 0 s ∧ stateIndex 0 s < 13 := by
  cases s <;> simp [stateIndex, UIDX, VIDX, WIDX, PIDX, QIDX, RIDX, nbOfStatesPerBody]

theorem forceOne_emb (g : Interp ℝ → ℝ → Except Err ℝ) {b : BlockedDof ℝ} (hb : b.bodyIdx = 0 ∨ ∀ s, b.dof s = none) (t : ℝ)
    {pre x post : List ℝ} {k : Nat} (hp : pre.length = k * 13) (hx : x.length = 13) (s : BlockableState) {y : List ℝ}
    (h : forceOne g b t x s = .ok y) :
    forceOne g { b with bodyIdx := k } t (pre ++ x ++ post) s = .ok (pre ++ y ++ post) ∧ y.length = 13 := by
  obtain ⟨e1, e2⟩ := stateIndex_emb k s
  have e3 : isBlockedAt { b with bodyIdx := k } s t = isBlockedAt b s t := rfl
  unfold forceOne at h ⊢
  rw [e3]
  dsimp only
  cases hd : b.dof s with
  | none => rw [hd] at h; cases h; exact ⟨rfl, hx⟩
  | some i =>
    rw [hd] at h
    dsimp only at h ⊢
    have hb0 : b.bodyIdx = 0 := hb.resolve_right fun hf => by rw [hf s] at hd; cases hd
    by_cases hc : isBlockedAt b s t = true
    · rw [if_pos hc] at h ⊢
      cases hg : g i t with
      | error er => rw [hg] at h; cases er <;> cases h
      | ok v =>
        rw [hg] at h
        dsimp only at h ⊢
        rw [hb0, setUB, if_pos (by omega)] at h
        cases h
        rw [e1]
        exact ⟨setUB_emb v hp hx e2, by rw [List.length_set, hx]⟩
    · rw [if_neg hc] at h ⊢
      cases h; exact ⟨rfl, hx⟩

theorem forceFold_emb (g : Interp ℝ → ℝ → Except Err ℝ) {b : BlockedDof ℝ} (hb : b.bodyIdx = 0 ∨ ∀ s, b.dof s = none) (t : ℝ)
    {pre post : List ℝ} {k : Nat} (hp : pre.length = k * 13) : ∀ (l : List BlockableState) (x y : List ℝ), x.length = 13 →
      l.foldlM (forceOne g b t) x = .ok y →
      l.foldlM (forceOne g { b with bodyIdx := k } t) (pre ++ x ++ post) = .ok (pre ++ y ++ post) ∧ y.length = 13
  | [], x, y, hx, h => by cases h; exact ⟨rfl, hx⟩
  | s :: l, x, y, hx, h => by
    rw [List.foldlM_cons] at h ⊢
    obtain ⟨z, h1, h2⟩ := bind_ok h
    obtain ⟨e1, e2⟩ := forceOne_emb (post := post) g hb t hp hx s h1
    rw [e1]
    exact forceFold_emb g hb t hp l z y e2 h2

/-- Blocked states of a body among others. -/
theorem forceStates_emb {e : Entry ℝ} (he : Seated e) (t : ℝ) {pre x post y : List ℝ} {k : Nat} (hp : pre.length = k * 13)
    (hx : x.length = 13) (h : forceStates e.body.blocked x t = .ok y) :
    forceStates (place k e).body.blocked (pre ++ x ++ post) t = .ok (pre ++ y ++ post) ∧ y.length = 13 :=
  forceFold_emb Interp.f he.seat t hp _ x y hx h

theorem forceStateDerivatives_emb {e : Entry ℝ} (he : Seated e) (t : ℝ) {pre x post y : List ℝ} {k : Nat} (hp : pre.length = k * 13)
    (hx : x.length = 13) (h : forceStateDerivatives e.body.blocked x t = .ok y) :
    forceStateDerivatives (place k e).body.blocked (pre ++ x ++ post) t = .ok (pre ++ y ++ post) ∧ y.length = 13 :=
  forceFold_emb Interp.df he.seat t hp _ x y hx h

theorem updateBodyStates_emb (ae : Nat → ℝ → ℝ → Bool) {e : Entry ℝ} (he : Seated e) {x : List ℝ} (hx : x.length = 13) (t : ℝ)
    {h h' : States (History ℝ)} {k : Nat} {preX postX : List ℝ} (hpx : preX.length = k * 13)
    (hh : updateBodyStates ae e.body.blocked h x t = .ok h') :
    Multi.updateBodyStates ae (place k e).body h (preX ++ x ++ postX) t = .ok h' := by
  unfold updateBodyStates at hh
  obtain ⟨y, e1, e2⟩ := bind_ok hh
  obtain ⟨e3, hy⟩ := forceStates_emb (post := postX) he t hpx hx e1
  have ge := fun j hj => getUB_emb (post := postX) (j := j) hpx hy hj
  have e0 : getUB (preX ++ y ++ postX) (k * 13) = getUB y 0 := ge 0 (by decide)
  rw [← e2]
  unfold Multi.updateBodyStates
  rw [e3]
  simp only [place_idx, bind, Except.bind, XIDX, YIDX, ZIDX, UIDX, VIDX, WIDX, PIDX, QIDX, RIDX, QRIDX, QIIDX, QJIDX, QKIDX,
      nbOfStatesPerBody, e0, ge _ (show 1 < 13 by decide), ge _ (show 2 < 13 by decide), ge _ (show 3 < 13 by decide),
      ge _ (show 4 < 13 by decide), ge _ (show 5 < 13 by decide), ge _ (show 6 < 13 by decide), ge _ (show 7 < 13 by decide),
      ge _ (show 8 < 13 by decide), ge _ (show 9 < 13 by decide), ge _ (show 10 < 13 by decide), ge _ (show 11 < 13 by decide),
      ge _ (show 12 < 13 by decide), Nat.zero_mul, Nat.zero_add]

theorem updateKinematics_emb {e : Entry ℝ} (he : Seated e) {x : List ℝ} (hx : x.length = 13) {k : Nat} {preX postX : List ℝ}
    (hpx : preX.length = k * 13) (kin : Kin ℝ) :
    updateKinematics (place k e).body (preX ++ x ++ postX) kin = updateKinematics e.body x kin := by
  simp only [updateKinematics, rotFromNedTo, place_idx, place_name, he.idx, getOrigin_emb hpx hx, quatOf_emb hpx hx]

theorem addForce_place (k : Nat) (e : Entry ℝ) : addForce (place k e).body = addForce e.body := rfl

theorem sumOfForces_emb {e : Entry ℝ} (he : Seated e) {x : List ℝ} (hx : x.length = 13) {k : Nat} {preX postX : List ℝ}
    (hpx : preX.length = k * 13) (c : Commands ℝ) (h : States (History ℝ)) (kin : Kin ℝ) (t : ℝ) :
    sumOfForces c (place k e).body e.forces e.controlled h kin (preX ++ x ++ postX) t =
      sumOfForces c e.body e.forces e.controlled h kin x t := by
  simp only [sumOfForces, place_idx, uvwpqr_emb hpx hx, he.idx, addForce_place, place_coriolis]

theorem stateDerivatives_emb {e : Entry ℝ} (he : Seated e) {x : List ℝ} (hx : x.length = 13) {k : Nat}
    {preX postX preD postD : List ℝ} (hpx : preX.length = k * 13) (hpd : preD.length = k * 13) (F : Vec6 ℝ) (R : Mat3 ℝ)
    (t : ℝ) {d : List ℝ} (hd : stateDerivatives e.body.blocked e.body.Minv F R x (List.replicate x.length 0) t e.body.idx = .ok d) :
    stateDerivatives (place k e).body.blocked (place k e).body.Minv F R (preX ++ x ++ postX)
        (preD ++ List.replicate 13 0 ++ postD) t k = .ok (preD ++ d ++ postD) := by
  obtain ⟨p, u, v, q, rfl⟩ := thirteen x hx
  rw [he.idx, hx] at hd
  unfold stateDerivatives at hd ⊢
  obtain ⟨d1, h1, h2⟩ := bind_ok hd
  rw [place_Minv, unforced_emb (postX := postX) (postD := postD) e.body.Minv F R p u v q hpx hpd h1]
  simp only [bind, Except.bind]
  have hl : d1.length = 13 := by rw [unforced_vec13] at h1; cases h1; rfl
  exact (forceStateDerivatives_emb he t hpd hl h2).1

/-- One body in the loop of `dx_dt`. -/
theorem step_member (ae : Nat → ℝ → ℝ → Bool) {e : Entry ℝ} (he : Independent e) (M : Maps ℝ)
    (hM : lookup M.forces e.body.name = e.forces) (hM' : lookup M.controlled e.body.name = e.controlled) (c : Commands ℝ)
    {x dx : List ℝ} (hx : x.length = 13) (t : ℝ) {h h' : States (History ℝ)} {F : Vec3 ℝ × Vec3 ℝ}
    (hh : updateBodyStates ae e.body.blocked h x t = .ok h') (hE : (onePhysics e).eval c h' x t = .ok (dx, F)) {k : Nat}
    {preX postX preD postD : List ℝ} (hpx : preX.length = k * 13) (hpd : preD.length = k * 13) (w : World ℝ)
    (hw : w.dx = preD ++ List.replicate 13 0 ++ postD) :
    ∃ w', stepBody ae M c (preX ++ x ++ postX) t w (place k e).body h = .ok (w', h') ∧ w'.dx = preD ++ dx ++ postD := by
  unfold onePhysics at hE
  obtain ⟨kin0, hk0, hE⟩ := bind_ok hE
  obtain ⟨F', hF, hE⟩ := bind_ok hE
  obtain ⟨T, hT, hE⟩ := bind_ok hE
  obtain ⟨d, hd, hE⟩ := bind_ok hE
  simp only [pure, Except.pure, Except.ok.injEq, Prod.mk.injEq] at hE
  obtain ⟨rfl, rfl⟩ := hE
  have hk := updateKinematics_same (A := fun n => n = "NED") (b := e.body) (x := x) (x' := x)
    (k := w.kin) (k' := []) (fun _ _ => rfl) (fun n hn => by simp only [frameOf, hn, if_true])
  rw [hk0] at hk
  cases hk1 : updateKinematics e.body x w.kin with
  | error er => rw [hk1] at hk; exact hk.elim
  | ok kin =>
    rw [hk1] at hk
    have hag : Agree (fun n => n = "NED" ∨ OwnFrame e.body n) kin kin0 := hk
    have hF' := sumOfForces_same (c := c) (h := h') (k := kin) (k' := kin0) (x := x) (x' := x) (t := t)
      (b := e.body) (fs := e.forces) (cs := e.controlled) (Or.inr (Or.inl rfl)) he.forces he.controlled hag (fun _ _ => rfl)
    rw [hF] at hF'
    have hT' : kin.get "NED" e.body.name = .ok T := by
      rw [← hT]
      have h0 : frameOf kin "NED" = frameOf kin0 "NED" := by simp only [frameOf, if_true]
      simp only [Kin.get, h0, hag e.body.name (Or.inr (Or.inl rfl))]
    have hd' := stateDerivatives_emb he.toSeated hx (postX := postX) (postD := postD) hpx hpd _ _ t hd
    refine ⟨⟨kin, w.sums.set e.body.name F', preD ++ d ++ postD⟩, ?_, rfl⟩
    unfold stepBody
    rw [updateKinematics_emb he.toSeated hx hpx, hk1, updateBodyStates_emb ae he.toSeated hx t hpx hh]
    simp only [bind, Except.bind, pure, Except.pure, place_name, hM, hM', sumOfForces_emb he.toSeated hx hpx, hF', hT', place_idx, hw, hd']

/-! ### Vectors of several bodies -/

/-- The vectors of the bodies `0 … n-1`, one after the other. -/
def cat (n : Nat) (x : Nat → List ℝ) : List ℝ := (List.range n).flatMap x

theorem cat_succ (n : Nat) (x : Nat → List ℝ) : cat (n + 1) x = cat n x ++ x n := by
  simp only [cat, List.range_succ, List.flatMap_append, List.flatMap_cons, List.flatMap_nil, List.append_nil]

theorem cat_length (n : Nat) (x : Nat → List ℝ) (h : ∀ k < n, (x k).length = 13) : (cat n x).length = n * 13 := by
  induction n with
  | zero => rfl
  | succ n ih => rw [cat_succ, List.length_append, ih (fun k hk => h k (by omega)), h n (by omega)]; omega

theorem cat_congr {n : Nat} {x y : Nat → List ℝ} (h : ∀ k < n, x k = y k) : cat n x = cat n y := by
  induction n with
  | zero => rfl
  | succ n ih => rw [cat_succ, cat_succ, ih (fun k hk => h k (by omega)), h n (by omega)]

/-- A vector of several bodies seen from one of them. -/
theorem cat_split (x : Nat → List ℝ) (k m : Nat) : cat (k + 1 + m) x = cat k x ++ x k ++ cat m (fun i => x (k + 1 + i)) := by
  induction m with
  | zero => rw [Nat.add_zero, cat_succ]; simp [cat]
  | succ m ih => rw [← Nat.add_assoc, cat_succ, ih, cat_succ, List.append_assoc]

/-- The states of body `k` in a vector of states. -/
def block (k : Nat) (x : List ℝ) : List ℝ := (x.drop (13 * k)).take 13

theorem block_cat {n k : Nat} (x : Nat → List ℝ) (h : ∀ k < n, (x k).length = 13) (hk : k < n) : block k (cat n x) = x k := by
  obtain ⟨m, rfl⟩ : ∃ m, n = k + 1 + m := ⟨n - (k + 1), by omega⟩
  rw [cat_split, block, List.append_assoc, List.drop_append_of_le_length (by rw [cat_length _ _ (fun i hi => h i (by omega))]; omega),
    List.drop_eq_nil_of_le (by rw [cat_length _ _ (fun i hi => h i (by omega))]; omega), List.nil_append,
    List.take_append_of_le_length (by rw [h k hk]), List.take_of_length_le (by rw [h k hk])]

theorem zipWith_cat (f : ℝ → ℝ → ℝ) (n : Nat) (x y : Nat → List ℝ) (hx : ∀ k < n, (x k).length = 13) (hy : ∀ k < n, (y k).length = 13) :
    List.zipWith f (cat n x) (cat n y) = cat n (fun k => List.zipWith f (x k) (y k)) := by
  induction n with
  | zero => rfl
  | succ n ih =>
    have hx' : ∀ k < n, (x k).length = 13 := fun k hk => hx k (by omega)
    have hy' : ∀ k < n, (y k).length = 13 := fun k hk => hy k (by omega)
    rw [cat_succ, cat_succ, cat_succ, List.zipWith_append (by rw [cat_length _ _ hx', cat_length _ _ hy']), ih hx' hy']

theorem combine_cat (dt : ℝ) (n : Nat) : ∀ (as : List ℝ) (ks : List (Nat → List ℝ)) (x : Nat → List ℝ),
    (∀ k < n, (x k).length = 13) → (∀ K ∈ ks, ∀ k < n, (K k).length = 13) →
    combine dt (cat n x) as (ks.map (cat n)) = cat n (fun k => combine dt (x k) as (ks.map (fun K => K k)))
  | [], ks, x, _, _ => by
    have : ∀ y : List ℝ, ∀ l : List (List ℝ), combine dt y [] l = y := by intro y l; cases y <;> rfl
    simp only [this]
  | a :: as, [], x, _, _ => rfl
  | a :: as, K :: ks, x, hx, hk => by
    have hK := hk K (by simp)
    rw [List.map_cons, combine, zipWith_cat _ _ _ _ hx hK, combine_cat dt n as ks _
      (fun k hk' => by rw [List.length_zipWith, hx k hk', hK k hk']; rfl) (fun K' h => hk K' (by simp [h]))]
    exact cat_congr fun k _ => by rw [List.map_cons, combine]

/-! ### Normalisation of the quaternions -/

theorem normalizeOne_emb (ae1 : ℝ → Bool) {pre b post : List ℝ} {k : Nat} (hp : pre.length = k * 13) (hb : b.length = 13)
    {y : List ℝ} (h : normalizeOne ae1 b 0 = .ok y) :
    normalizeOne ae1 (pre ++ b ++ post) k = .ok (pre ++ y ++ post) := by
  unfold normalizeOne at h ⊢
  rw [quatOf_emb hp hb]
  obtain ⟨q, hq, h⟩ := bind_ok h
  rw [hq]
  simp only [bind, Except.bind, pure, Except.pure] at h ⊢
  generalize hypot (hypot (hypot q.w q.x) q.y) q.z = N at h ⊢
  by_cases hN : ae1 N = true
  · rw [if_pos hN] at h ⊢
    cases h; rfl
  · rw [if_neg hN] at h ⊢
    have g := fun (b : List ℝ) (v : ℝ) (j : Nat) (hb : b.length = 13) (hj : j < 13) => setUB_emb (k := k) (post := post) v hp hb hj
    have g1 : ∀ (b : List ℝ) (v : ℝ) (j : Nat), b.length = 13 → j < 13 → setUB b j v = .ok (b.set j v) := fun b v j hb hj => by
      rw [setUB, if_pos (by omega)]
    simp only [QRIDX, QIIDX, QJIDX, QKIDX, nbOfStatesPerBody, Nat.zero_mul, Nat.zero_add, g1, hb, List.length_set, Nat.reduceLT] at h
    simp only [QRIDX, QIIDX, QJIDX, QKIDX, nbOfStatesPerBody, g, hb, List.length_set, Nat.reduceLT]
    cases h; rfl

theorem normalizeOne_length {ae1 : ℝ → Bool} {b y : List ℝ} (hb : b.length = 13) (h : normalizeOne ae1 b 0 = .ok y) :
    y.length = 13 := by
  obtain ⟨x', c, h1, h2, -⟩ := normalizeOne_spec ae1 b 0 (by omega)
  rw [h1] at h
  cases h
  omega

theorem normalize_cat (ae1 : ℝ → Bool) (n : Nat) (x y : Nat → List ℝ) (hx : ∀ k < n, (x k).length = 13)
    (h : ∀ k < n, normalizeQuaternions ae1 1 (x k) = .ok (y k)) : normalizeQuaternions ae1 n (cat n x) = .ok (cat n y) := by
  have h1 : ∀ k < n, normalizeOne ae1 (x k) 0 = .ok (y k) := by
    intro k hk
    have := h k hk
    simp only [normalizeQuaternions, show List.range 1 = [0] from rfl, List.foldlM_cons, List.foldlM_nil] at this
    obtain ⟨a, ha, hb⟩ := bind_ok this
    cases hb
    exact ha
  have key : ∀ m ≤ n, (List.range m).foldlM (normalizeOne ae1) (cat n x) = .ok (cat n (fun k => if k < m then y k else x k)) := by
    intro m
    induction m with
    | zero => intro _; simp only [List.range_zero, List.foldlM_nil, pure, Except.pure, Nat.not_lt_zero, if_false]
    | succ m ih =>
      intro hm
      rw [List.range_succ, List.foldlM_append, ih (by omega)]
      simp only [List.foldlM_cons, List.foldlM_nil, bind, Except.bind]
      obtain ⟨r, rfl⟩ : ∃ r, n = m + 1 + r := ⟨n - (m + 1), by omega⟩
      rw [cat_split, cat_split]
      have hl : ∀ k < m, (if k < m then y k else x k).length = 13 := by
        intro k hk
        rw [if_pos hk]
        exact normalizeOne_length (hx k (by omega)) (h1 k (by omega))
      rw [if_neg (lt_irrefl m), normalizeOne_emb ae1 (cat_length _ _ hl) (hx m (by omega)) (h1 m (by omega))]
      simp only [pure, Except.pure]
      rw [if_pos (show m < m + 1 by omega)]
      congr 3
      · exact cat_congr fun k hk => by rw [if_pos hk, if_pos (show k < m + 1 by omega)]
      · funext i
        rw [if_neg (show ¬ m + 1 + i < m by omega), if_neg (show ¬ m + 1 + i < m + 1 by omega)]
  rw [normalizeQuaternions, key n le_rfl]
  congr 1
  exact cat_congr fun k hk => by rw [if_pos hk]

/-! ### One evaluation -/

theorem eval_length {e : Entry ℝ} (he : Seated e) {c : Commands ℝ} {h : States (History ℝ)} {x : List ℝ} (hx : x.length = 13) {t : ℝ}
    {dx : List ℝ} {F : Vec3 ℝ × Vec3 ℝ} (hE : (onePhysics e).eval c h x t = .ok (dx, F)) : dx.length = 13 := by
  unfold onePhysics at hE
  obtain ⟨kin0, hk0, hE⟩ := bind_ok hE
  obtain ⟨F', hF, hE⟩ := bind_ok hE
  obtain ⟨T, hT, hE⟩ := bind_ok hE
  obtain ⟨d, hd, hE⟩ := bind_ok hE
  simp only [pure, Except.pure, Except.ok.injEq, Prod.mk.injEq] at hE
  obtain ⟨rfl, rfl⟩ := hE
  obtain ⟨p, u, v, q, rfl⟩ := thirteen x hx
  rw [he.idx, hx] at hd
  unfold stateDerivatives at hd
  obtain ⟨d1, h1, h2⟩ := bind_ok hd
  have hl : d1.length = 13 := by rw [unforced_vec13] at h1; cases h1; rfl
  exact (forceStateDerivatives_emb (pre := []) (post := []) (k := 0) he t rfl hl h2).2

theorem placeAll_eq (n : Nat) (es : Nat → Entry ℝ) :
    placeAll ((List.range n).map es) = (List.range n).map (fun k => place k (es k)) := by
  refine List.ext_getElem (by simp [placeAll]) fun i h1 h2 => ?_
  simp [placeAll]

theorem dxdt_fleet (ae : Nat → ℝ → ℝ → Bool) (n : Nat) (es : Nat → Entry ℝ) (he : ∀ k < n, Independent (es k)) (M : Maps ℝ)
    (hM : ∀ k < n, lookup M.forces (es k).body.name = (es k).forces ∧ lookup M.controlled (es k).body.name = (es k).controlled)
    (c : Commands ℝ) (x dx : Nat → List ℝ) (hx : ∀ k < n, (x k).length = 13) (t : ℝ) (h h' : Nat → States (History ℝ))
    (F : Nat → Vec3 ℝ × Vec3 ℝ) (hh : ∀ k < n, updateBodyStates ae (es k).body.blocked (h k) (x k) t = .ok (h' k))
    (hE : ∀ k < n, (onePhysics (es k)).eval c (h' k) (x k) t = .ok (dx k, F k)) (w : World ℝ) (hw : w.dx = List.replicate (n * 13) 0) :
    ∃ w', dxdt ae M c (cat n x) t ((List.range n).map (fun k => ((place k (es k)).body, h k))) w =
      .ok (w', (List.range n).map h') ∧ w'.dx = cat n dx := by
  have app : ∀ (l : List (MBody ℝ × States (History ℝ))) (b : MBody ℝ) (hb : States (History ℝ)) (w w1 w2 : World ℝ)
      (H : List (States (History ℝ))) (hb' : States (History ℝ)), dxdt ae M c (cat n x) t l w = .ok (w1, H) →
      stepBody ae M c (cat n x) t w1 b hb = .ok (w2, hb') → dxdt ae M c (cat n x) t (l ++ [(b, hb)]) w = .ok (w2, H ++ [hb']) := by
    intro l
    induction l with
    | nil =>
      intro b hb w w1 w2 H hb' h1 h2
      cases h1
      simp only [List.nil_append, dxdt, h2, bind, Except.bind, pure, Except.pure]
    | cons a l ih =>
      intro b hb w w1 w2 H hb' h1 h2
      obtain ⟨a, ha⟩ := a
      unfold dxdt at h1
      obtain ⟨⟨w3, h3⟩, e1, h1⟩ := bind_ok h1
      obtain ⟨⟨w4, h4⟩, e2, h1⟩ := bind_ok h1
      cases h1
      rw [List.cons_append, dxdt, e1]
      simp only [bind, Except.bind, ih b hb w3 w1 w2 h4 hb' e2 h2, pure, Except.pure, List.cons_append]
  have key : ∀ m ≤ n, ∃ w', dxdt ae M c (cat n x) t ((List.range m).map (fun k => ((place k (es k)).body, h k))) w =
      .ok (w', (List.range m).map h') ∧ w'.dx = cat m dx ++ List.replicate ((n - m) * 13) 0 := by
    intro m
    induction m with
    | zero => intro _; exact ⟨w, rfl, by simp [cat, hw]⟩
    | succ m ih =>
      intro hm
      obtain ⟨w1, e1, e2⟩ := ih (by omega)
      obtain ⟨r, rfl⟩ : ∃ r, n = m + 1 + r := ⟨n - (m + 1), by omega⟩
      have hdl : ∀ k < m, (dx k).length = 13 := fun k hk => eval_length (he k (by omega)).toSeated (hx k (by omega)) (hE k (by omega))
      obtain ⟨w2, e3, e4⟩ := step_member ae (he m (by omega)) M (hM m (by omega)).1 (hM m (by omega)).2 c (hx m (by omega)) t
        (hh m (by omega)) (hE m (by omega)) (postX := cat r (fun i => x (m + 1 + i))) (postD := List.replicate (r * 13) 0)
        (cat_length m x (fun k hk => hx k (by omega))) (cat_length m dx hdl) w1
        (by
          rw [e2, show (m + 1 + r - m) * 13 = 13 + r * 13 by omega, List.replicate_add, List.append_assoc])
      rw [← cat_split] at e3
      refine ⟨w2, ?_, ?_⟩
      · rw [List.range_succ, List.map_append, List.map_append]
        exact app _ _ _ _ _ _ _ _ e1 e3
      · rw [e4, cat_succ, show m + 1 + r - (m + 1) = r by omega]
  obtain ⟨w', e1, e2⟩ := key n le_rfl
  exact ⟨w', e1, by simpa using e2⟩

/-- The simulation of all the bodies. -/
noncomputable def fleetOf (n : Nat) (es : Nat → Entry ℝ) (ae : Nat → ℝ → ℝ → Bool) (ae1 : ℝ → Bool) : FleetSetup ℝ where
  entries := placeAll ((List.range n).map es)
  ae := ae
  normalize := normalizeQuaternions ae1 n

/-- The simulation of all the bodies and the simulations of each of them are at the same point. -/
structure Together (n : Nat) (f : Fleet ℝ) (s : Nat → Sim ℝ (Vec3 ℝ × Vec3 ℝ)) : Prop where
  hist : f.hist = (List.range n).map (fun k => (s k).hist)
  commands : ∀ k < n, (s k).commands = f.commands
  length : ∀ k < n, (s k).state.length = 13
  state : f.state = cat n (fun k => (s k).state)

theorem call_fleet (n : Nat) (es : Nat → Entry ℝ) (he : ∀ k < n, Independent (es k))
    (hn : ((List.range n).map (fun k => (es k).body.name)).Nodup) (ae : Nat → ℝ → ℝ → Bool) (ae1 : ℝ → Bool)
    (f : Fleet ℝ) (s s' : Nat → Sim ℝ (Vec3 ℝ × Vec3 ℝ)) (hf : Together n f s) (x dx : Nat → List ℝ) (hx : ∀ k < n, (x k).length = 13)
    (t : ℝ) (h : ∀ k < n, (s k).call (oneBody (es k) ae ae1) (x k) t = .ok (dx k, s' k)) :
    (∃ f', f.call (fleetOf n es ae ae1) (cat n x) t = .ok (cat n dx, f') ∧ Together n f' s') ∧ ∀ k < n, (dx k).length = 13 := by
  have key : ∀ k, ∃ h' F y, k < n → updateBodyStates ae (es k).body.blocked (s k).hist (x k) t = .ok h' ∧
      (onePhysics (es k)).eval (s k).commands h' (x k) t = .ok (dx k, F) ∧ normalizeQuaternions ae1 1 (x k) = .ok y ∧
      s' k = { s k with state := y, hist := h', dxdt := dx k, cache := F } := by
    intro k
    by_cases hk : k < n
    · have := h k hk
      unfold Sim.call at this
      obtain ⟨h', e1, this⟩ := bind_ok this
      obtain ⟨⟨d, F⟩, e2, this⟩ := bind_ok this
      obtain ⟨y, e3, this⟩ := bind_ok this
      simp only [pure, Except.pure, Except.ok.injEq, Prod.mk.injEq] at this
      obtain ⟨rfl, this⟩ := this
      exact ⟨h', F, y, fun _ => ⟨e1, e2, e3, this.symm⟩⟩
    · exact ⟨(s k).hist, (s k).cache, [], fun h => absurd h hk⟩
  choose h' F y hk using key
  have hM : ∀ k < n, lookup (mapsOf (fleetOf n es ae ae1).entries).forces (es k).body.name = (es k).forces ∧
      lookup (mapsOf (fleetOf n es ae ae1).entries).controlled (es k).body.name = (es k).controlled := by
    intro k hk
    have hmem : place k (es k) ∈ (fleetOf n es ae ae1).entries := by
      simp only [fleetOf, placeAll_eq]
      exact List.mem_map.2 ⟨k, List.mem_range.2 hk, rfl⟩
    have hnd : ((fleetOf n es ae ae1).entries.map (fun e => e.body.name)).Nodup := by
      simp only [fleetOf, placeAll_eq, List.map_map]
      exact hn
    have h1 := lookup_own Entry.forces _ (place k (es k)) hmem hnd
    have h2 := lookup_own Entry.controlled _ (place k (es k)) hmem hnd
    exact ⟨h1, h2⟩
  obtain ⟨w', e1, e2⟩ := dxdt_fleet ae n es he _ hM f.commands x dx hx t (fun k => (s k).hist) h' F
    (fun k hk' => (hk k hk').1) (fun k hk' => by rw [← hf.commands k hk']; exact (hk k hk').2.1)
    ⟨f.kin, f.sums, List.replicate (cat n x).length 0⟩ (by rw [cat_length n x hx])
  have e3 := normalize_cat ae1 n x y hx (fun k hk' => (hk k hk').2.2.1)
  refine ⟨⟨{ f with state := cat n y, hist := (List.range n).map h', kin := w'.kin, sums := w'.sums }, ?_, ?_⟩, ?_⟩
  · unfold Fleet.call
    have ez : ((fleetOf n es ae ae1).entries.map Entry.body).zip f.hist =
        (List.range n).map (fun k => ((place k (es k)).body, (s k).hist)) := by
      rw [hf.hist]
      simp only [fleetOf, placeAll_eq, List.map_map]
      rw [List.zip_map']
      rfl
    rw [ez, show (fleetOf n es ae ae1).ae = ae from rfl, e1, show (fleetOf n es ae ae1).normalize = normalizeQuaternions ae1 n from rfl]
    simp only [bind, Except.bind, e3, pure, Except.pure, e2]
  · refine ⟨?_, ?_, ?_, ?_⟩
    · exact List.map_congr_left fun k hk' => by rw [(hk k (List.mem_range.1 hk')).2.2.2]
    · intro k hk'
      rw [(hk k hk').2.2.2]
      exact hf.commands k hk'
    · intro k hk'
      rw [(hk k hk').2.2.2]
      have := (hk k hk').2.2.1
      simp only [normalizeQuaternions, show List.range 1 = [0] from rfl, List.foldlM_cons, List.foldlM_nil] at this
      obtain ⟨a, ha, hb⟩ := bind_ok this
      cases hb
      exact normalizeOne_length (hx k hk') ha
    · exact cat_congr fun k hk' => by rw [(hk k hk').2.2.2]
  · exact fun k hk' => eval_length (he k hk').toSeated (hx k hk') (hk k hk').2.1

/-! ### One step -/

theorem from_fleet (n : Nat) (es : Nat → Entry ℝ) (he : ∀ k < n, Independent (es k))
    (hn : ((List.range n).map (fun k => (es k).body.name)).Nodup) (ae : Nat → ℝ → ℝ → Bool) (ae1 : ℝ → Bool)
    (w : List ℝ) (x : Nat → List ℝ) (hx : ∀ k < n, (x k).length = 13) (t dt : ℝ) :
    ∀ (rows : List (ℝ × List ℝ)) (ks : List (Nat → List ℝ)) (f : Fleet ℝ) (s s' : Nat → Sim ℝ (Vec3 ℝ × Vec3 ℝ)),
      (∀ K ∈ ks, ∀ k < n, (K k).length = 13) → Together n f s →
      (∀ k < n, (Tableau.from w (x k) t dt rows (ks.map (fun K => K k))).run (oneBody (es k) ae ae1) (s k) = .ok (s' k)) →
      ∃ f', (Tableau.from w (cat n x) t dt rows (ks.map (cat n))).runFleet (fleetOf n es ae ae1) f = .ok f' ∧ Together n f' s' := by
  have hcl : ∀ (a : List ℝ) (ks : List (Nat → List ℝ)), (∀ K ∈ ks, ∀ k < n, (K k).length = 13) → ∀ k < n,
      (combine dt (x k) a (ks.map (fun K => K k))).length = 13 := fun a ks hks k hk => combine_length dt _ _ _ (hx k hk) (by
    intro l hl
    obtain ⟨K, hK, rfl⟩ := List.mem_map.1 hl
    exact hks K hK k hk)
  intro rows
  induction rows with
  | nil =>
    intro ks f s s' hks hf h
    refine ⟨{ f with state := combine dt (cat n x) w (ks.map (cat n)) }, rfl, ?_⟩
    have h' : ∀ k < n, s' k = { s k with state := combine dt (x k) w (ks.map (fun K => K k)) } := by
      intro k hk
      have := h k hk
      simp only [Tableau.from, Stepper.run, Except.ok.injEq] at this
      exact this.symm
    refine ⟨?_, ?_, ?_, ?_⟩
    · rw [show (Fleet.mk _ f.hist f.commands f.kin f.sums).hist = f.hist from rfl, hf.hist]
      exact List.map_congr_left fun k hk => by rw [h' k (List.mem_range.1 hk)]
    · intro k hk; rw [h' k hk]; exact hf.commands k hk
    · intro k hk; rw [h' k hk]; exact hcl w ks hks k hk
    · rw [show (Fleet.mk _ f.hist f.commands f.kin f.sums).state = combine dt (cat n x) w (ks.map (cat n)) from rfl,
        combine_cat dt n w ks x hx hks]
      exact cat_congr fun k hk => by rw [h' k hk]
  | cons r rows ih =>
    obtain ⟨c, a⟩ := r
    intro ks f s s' hks hf h
    have key : ∀ k, ∃ dx s1, k < n → (s k).call (oneBody (es k) ae ae1) (combine dt (x k) a (ks.map (fun K => K k))) (t + c * dt) = .ok (dx, s1) ∧
        (Tableau.from w (x k) t dt rows (ks.map (fun K => K k) ++ [dx])).run (oneBody (es k) ae ae1) s1 = .ok (s' k) := by
      intro k
      by_cases hk : k < n
      · have := h k hk
        simp only [Tableau.from, Stepper.run] at this
        obtain ⟨⟨dx, s1⟩, e1, e2⟩ := bind_ok this
        exact ⟨dx, s1, fun _ => ⟨e1, e2⟩⟩
      · exact ⟨[], s k, fun h => absurd h hk⟩
    choose dx s1 hk using key
    obtain ⟨⟨f1, e1, hf1⟩, hdx⟩ := call_fleet n es he hn ae ae1 f s s1 hf (fun k => combine dt (x k) a (ks.map (fun K => K k))) dx
      (hcl a ks hks) (t + c * dt) (fun k hk' => (hk k hk').1)
    obtain ⟨f', e2, hf'⟩ := ih (ks ++ [dx]) f1 s1 s' (by
        intro K hK
        rcases List.mem_append.1 hK with hK | hK
        · exact hks K hK
        · rw [List.mem_singleton.1 hK]; exact hdx) hf1
      (fun k hk' => by
        rw [List.map_append]
        exact (hk k hk').2)
    refine ⟨f', ?_, hf'⟩
    simp only [Tableau.from, Stepper.runFleet]
    rw [combine_cat dt n a ks x hx hks, e1]
    simp only [bind, Except.bind]
    rw [List.map_append] at e2
    exact e2

/-! ### Between the steps -/

/-- The forced states of one body among others, the others being unchanged. -/
theorem force_one {n m : Nat} (hm : m < n) {e : Entry ℝ} (he : Seated e) (t : ℝ) (x : Nat → List ℝ) (hx : ∀ k < n, (x k).length = 13)
    {y : List ℝ} (h : forceStates e.body.blocked (x m) t = .ok y) :
    forceStates (place m e).body.blocked (cat n x) t = .ok (cat n (fun k => if k = m then y else x k)) ∧ y.length = 13 := by
  obtain ⟨r, rfl⟩ : ∃ r, n = m + 1 + r := ⟨n - (m + 1), by omega⟩
  rw [cat_split, cat_split]
  obtain ⟨e1, e2⟩ := forceStates_emb (pre := cat m x) (post := cat r fun i => x (m + 1 + i)) (k := m) he t
    (cat_length _ _ fun k hk => hx k (by omega)) (hx m (by omega)) h
  rw [e1, if_pos rfl, cat_congr (n := m) (y := x) (fun k hk => if_neg (by omega)),
    cat_congr (n := r) (y := fun i => x (m + 1 + i)) (fun k hk => if_neg (by omega))]
  exact ⟨rfl, e2⟩

theorem forceAll_fleet {n : Nat} {es : Nat → Entry ℝ} (he : ∀ k < n, Seated (es k)) (t : ℝ) (x y : Nat → List ℝ)
    (hx : ∀ k < n, (x k).length = 13) (h : ∀ k < n, forceStates (es k).body.blocked (x k) t = .ok (y k)) :
    ((List.range n).map (fun k => (place k (es k)).body.blocked)).foldlM (fun x b => forceStates b x t) (cat n x) = .ok (cat n y) ∧
      ∀ k < n, (y k).length = 13 := by
  have hy : ∀ k < n, (y k).length = 13 := fun k hk => (force_one hk (he k hk) t x hx (h k hk)).2
  refine ⟨?_, hy⟩
  have key : ∀ m ≤ n, ((List.range m).map (fun k => (place k (es k)).body.blocked)).foldlM (fun x b => forceStates b x t) (cat n x) =
      .ok (cat n (fun k => if k < m then y k else x k)) := by
    intro m
    induction m with
    | zero => intro _; simp only [List.range_zero, List.map_nil, List.foldlM_nil, pure, Except.pure, Nat.not_lt_zero, if_false]
    | succ m ih =>
      intro hm
      rw [List.range_succ, List.map_append, List.foldlM_append, ih (by omega)]
      simp only [List.map_cons, List.map_nil, List.foldlM_cons, List.foldlM_nil, bind, Except.bind]
      rw [(force_one (show m < n by omega) (he m (by omega)) t (fun k => if k < m then y k else x k) (fun k hk => by
        by_cases hkm : k < m
        · rw [if_pos hkm]; exact hy k hk
        · rw [if_neg hkm]; exact hx k hk) (y := y m) (by rw [if_neg (lt_irrefl m)]; exact h m (by omega))).1]
      simp only [pure, Except.pure]
      congr 1
      refine cat_congr fun k hk => ?_
      by_cases h1 : k = m
      · rw [if_pos h1, if_pos (by omega), h1]
      · rw [if_neg h1]
        by_cases h2 : k < m
        · rw [if_pos h2, if_pos (by omega)]
        · rw [if_neg h2, if_neg (by omega)]
  rw [key n le_rfl]
  congr 1
  exact cat_congr fun k hk => if_pos hk

theorem force_fleet {n : Nat} {es : Nat → Entry ℝ} (he : ∀ k < n, Seated (es k)) (ae : Nat → ℝ → ℝ → Bool) (ae1 : ℝ → Bool)
    (T : Tableau ℝ) (f : Fleet ℝ) (s s' : Nat → Sim ℝ (Vec3 ℝ × Vec3 ℝ)) (hf : Together n f s) (t : ℝ)
    (h : ∀ k < n, (simSystem (oneBody (es k) ae ae1) T.stepper).force (s k) t = .ok (s' k)) :
    ∃ f', (fleetSystem (fleetOf n es ae ae1) T.stepper).force f t = .ok f' ∧ Together n f' s' := by
  have key : ∀ k, ∃ y, k < n → forceStates (es k).body.blocked (s k).state t = .ok y ∧ s' k = { s k with state := y } := by
    intro k
    by_cases hk : k < n
    · have := h k hk
      simp only [simSystem, forceAllStates, oneBody] at this
      obtain ⟨y, e1, e2⟩ := bind_ok this
      simp only [List.foldlM_cons, List.foldlM_nil] at e1
      obtain ⟨y', e3, e4⟩ := bind_ok e1
      cases e4
      simp only [pure, Except.pure, Except.ok.injEq] at e2
      exact ⟨y, fun _ => ⟨e3, e2.symm⟩⟩
    · exact ⟨[], fun h => absurd h hk⟩
  choose y hk using key
  obtain ⟨e1, e2⟩ := forceAll_fleet he t (fun k => (s k).state) y hf.length (fun k hk' => (hk k hk').1)
  refine ⟨{ f with state := cat n y }, ?_, ?_⟩
  · simp only [fleetSystem, forceAllStates, fleetOf, placeAll_eq, List.map_map, hf.state]
    rw [show ((fun e : Entry ℝ => e.body.blocked) ∘ fun k => place k (es k)) = fun k => (place k (es k)).body.blocked from rfl, e1]
    rfl
  · refine ⟨?_, ?_, ?_, ?_⟩
    · rw [show (Fleet.mk (cat n y) f.hist f.commands f.kin f.sums).hist = f.hist from rfl, hf.hist]
      exact List.map_congr_left fun k hk' => by rw [(hk k (List.mem_range.1 hk')).2]
    · intro k hk'; rw [(hk k hk').2]; exact hf.commands k hk'
    · intro k hk'; rw [(hk k hk').2]; exact e2 k hk'
    · exact cat_congr fun k hk' => by rw [(hk k hk').2]

/-- The bodies whose blocked states are in the outputs: the last one (see C24) and those that have none. -/
def Shown (n : Nat) (es : Nat → Entry ℝ) (k : Nat) : Prop := k + 1 = n ∨ ∀ s, (es k).body.blocked.dof s = none

theorem observe_fleet {n : Nat} {es : Nat → Entry ℝ} (h0 : 0 < n) (he : ∀ k < n, Seated (es k)) (ae : Nat → ℝ → ℝ → Bool) (ae1 : ℝ → Bool)
    (stepper : List ℝ → ℝ → ℝ → Stepper ℝ) (f : Fleet ℝ) (s : Nat → Sim ℝ (Vec3 ℝ × Vec3 ℝ)) (hf : Together n f s) (t : ℝ)
    (o : Nat → Res ℝ Unit) (ho : ∀ k < n, (s k).observe (oneBody (es k) ae ae1) t = .ok (o k)) :
    ∃ y, (fleetSystem (fleetOf n es ae ae1) stepper).observe f t = .ok (t, y) ∧ y.length = n * 13 ∧
      ∀ k < n, (o k).t = t ∧ (Shown n es k → block k y = (o k).x) := by
  have key : ∀ k, ∃ y, k < n → forceStates (es k).body.blocked (s k).state t = .ok y ∧ normalizeQuaternions ae1 1 y = .ok (o k).x ∧
      (o k).t = t := by
    intro k
    by_cases hk : k < n
    · have := ho k hk
      unfold Sim.observe at this
      simp only [oneBody, outputStates, List.foldlM_cons, List.foldlM_nil] at this
      obtain ⟨y, e1, e2⟩ := bind_ok this
      obtain ⟨y', e5, e6⟩ := bind_ok e1
      cases e6
      obtain ⟨z, e3, e4⟩ := bind_ok e2
      simp only [pure, Except.pure, Except.ok.injEq] at e4
      exact ⟨y, fun _ => ⟨e5, by rw [← e4]; exact e3, by rw [← e4]⟩⟩
    · exact ⟨[], fun h => absurd h hk⟩
  choose y hk using key
  have hy : ∀ k < n, (y k).length = 13 := fun k hk' => (force_one hk' (he k hk') t (fun k => (s k).state) hf.length (hk k hk').1).2
  have hout : ∀ m ≤ n, ∀ z, ((List.range m).map (fun k => (place k (es k)).body.blocked)).foldlM
      (fun _ b => forceStates b (cat n fun k => (s k).state) t) z =
      .ok (if m = 0 then z else cat n (fun k => if k + 1 = m then y k else (s k).state)) := by
    intro m
    induction m with
    | zero => intro _ z; rfl
    | succ m ih =>
      intro hm z
      rw [List.range_succ, List.map_append, List.foldlM_append, ih (by omega)]
      simp only [List.map_cons, List.map_nil, List.foldlM_cons, List.foldlM_nil, bind, Except.bind]
      rw [(force_one (show m < n by omega) (he m (by omega)) t (fun k => (s k).state) hf.length (hk m (by omega)).1).1]
      simp only [pure, Except.pure, if_neg (Nat.succ_ne_zero m)]
      congr 1
      refine cat_congr fun k _ => ?_
      by_cases h1 : k = m
      · rw [if_pos h1, if_pos (by omega), h1]
      · rw [if_neg h1, if_neg (by omega)]
  have hnorm : ∀ k, ∃ z, k < n → normalizeQuaternions ae1 1 (if k + 1 = n then y k else (s k).state) = .ok z ∧ z.length = 13 := by
    intro k
    by_cases hk' : k < n
    · have hl : (if k + 1 = n then y k else (s k).state).length = 13 := by
        by_cases h1 : k + 1 = n
        · rw [if_pos h1]; exact hy k hk'
        · rw [if_neg h1]; exact hf.length k hk'
      obtain ⟨x', c, h1, h2, -⟩ := normalizeOne_spec ae1 (if k + 1 = n then y k else (s k).state) 0 (by omega)
      refine ⟨x', fun _ => ⟨?_, by omega⟩⟩
      simp only [normalizeQuaternions, show List.range 1 = [0] from rfl, List.foldlM_cons, List.foldlM_nil, h1, bind, Except.bind, pure, Except.pure]
    · exact ⟨[], fun h => absurd h hk'⟩
  choose z hz using hnorm
  have hcat := normalize_cat ae1 n (fun k => if k + 1 = n then y k else (s k).state) z (fun k hk' => by
    by_cases h1 : k + 1 = n
    · simp only [h1, if_true]; exact hy k hk'
    · simp only [h1, if_false]; exact hf.length k hk') (fun k hk' => (hz k hk').1)
  refine ⟨cat n z, ?_, cat_length _ _ fun k hk' => (hz k hk').2, fun k hk' => ⟨(hk k hk').2.2, fun hs => ?_⟩⟩
  · simp only [fleetSystem, outputStates, fleetOf, placeAll_eq, List.map_map, hf.state]
    rw [show ((fun e : Entry ℝ => e.body.blocked) ∘ fun k => place k (es k)) = fun k => (place k (es k)).body.blocked from rfl,
      hout n le_rfl, if_neg (by omega)]
    simp only [bind, Except.bind, hcat, pure, Except.pure]
  · rw [block_cat _ (fun j hj => (hz j hj).2) hk']
    have e1 := (hz k hk').1
    have e2 : (if k + 1 = n then y k else (s k).state) = y k := by
      rcases hs with hs | hs
      · exact if_pos hs
      · have := (hk k hk').1
        rw [forceStates_free hs] at this
        rw [Except.ok.inj this, ite_self]
    rw [e2, (hk k hk').2.1] at e1
    exact (Except.ok.inj e1).symm

/-! ### C178 -/

/-- The result of a simulation that went to the end. -/
def Completes {S O : Type} (r : Option (Except Err (S × List O))) (obs : List O) : Prop := ∃ s, r = some (.ok (s, obs))

theorem loop_fleet (n : Nat) (h0 : 0 < n) (es : Nat → Entry ℝ) (he : ∀ k < n, Independent (es k))
    (hn : ((List.range n).map (fun k => (es k).body.name)).Nodup) (ae : Nat → ℝ → ℝ → Bool) (ae1 : ℝ → Bool) (T : Tableau ℝ)
    (tstart tend dt : ℝ) : ∀ (fuel i : Nat) (f : Fleet ℝ) (s s' : Nat → Sim ℝ (Vec3 ℝ × Vec3 ℝ)) (now : ℝ) (O : List (ℝ × List ℝ))
      (o o' : Nat → List (Res ℝ Unit)), Together n f s →
      (∀ k < n, Shown n es k → O.map (fun r => (r.1, block k r.2)) = (o k).map (fun r => (r.t, r.x))) → (∀ r ∈ O, r.2.length = n * 13) →
      (∀ k < n, loop (simSystem (oneBody (es k) ae ae1) T.stepper) tstart tend dt fuel i (s k) now (o k) = some (.ok (s' k, o' k))) →
      ∃ f' O', loop (fleetSystem (fleetOf n es ae ae1) T.stepper) tstart tend dt fuel i f now O = some (.ok (f', O')) ∧ Together n f' s' ∧
        (∀ k < n, Shown n es k → O'.map (fun r => (r.1, block k r.2)) = (o' k).map (fun r => (r.t, r.x))) ∧
        ∀ r ∈ O', r.2.length = n * 13 := by
  intro fuel
  have hstop : ∀ (f : Fleet ℝ) (s s' : Nat → Sim ℝ (Vec3 ℝ × Vec3 ℝ)) (O : List (ℝ × List ℝ))
      (o o' : Nat → List (Res ℝ Unit)), Together n f s →
      (∀ k < n, Shown n es k → O.map (fun r => (r.1, block k r.2)) = (o k).map (fun r => (r.t, r.x))) →
      (∀ k < n, (some (Except.ok (s k, o k)) : Option (Except Err _)) = some (.ok (s' k, o' k))) →
      Together n f s' ∧ ∀ k < n, Shown n es k → O.map (fun r => (r.1, block k r.2)) = (o' k).map (fun r => (r.t, r.x)) := by
    intro f s s' O o o' hf hO h
    have h1 : ∀ k < n, s k = s' k ∧ o k = o' k := fun k hk => by
      have := h k hk
      simpa using this
    refine ⟨⟨?_, ?_, ?_, ?_⟩, fun k hk hs => by rw [hO k hk hs, (h1 k hk).2]⟩
    · rw [hf.hist]; exact List.map_congr_left fun k hk => by rw [(h1 k (List.mem_range.1 hk)).1]
    · intro k hk; rw [← (h1 k hk).1]; exact hf.commands k hk
    · intro k hk; rw [← (h1 k hk).1]; exact hf.length k hk
    · rw [hf.state]; exact cat_congr fun k hk => by rw [(h1 k hk).1]
  induction fuel with
  | zero =>
    intro i f s s' now O o o' hf hO hl h
    by_cases hlt : now < tend
    · have hs := h 0 h0
      simp [loop, hlt] at hs
    · simp only [loop, if_neg hlt] at h ⊢
      obtain ⟨e1, e2⟩ := hstop f s s' O o o' hf hO h
      exact ⟨f, O, rfl, e1, e2, hl⟩
  | succ fuel ih =>
    intro i f s s' now O o o' hf hO hl h
    by_cases hlt : now < tend
    · have key : ∀ k, ∃ s1 s2 ob, k < n → (T.stepper (s k).state now dt).run (oneBody (es k) ae ae1) (s k) = .ok s1 ∧
          (simSystem (oneBody (es k) ae ae1) T.stepper).force s1 now = .ok s2 ∧
          s2.observe (oneBody (es k) ae ae1) (tstart + ((i + 1 : Nat) : ℝ) * dt) = .ok ob ∧
          loop (simSystem (oneBody (es k) ae ae1) T.stepper) tstart tend dt fuel (i + 1) s2
            (tstart + ((i + 1 : Nat) : ℝ) * dt) (o k ++ [ob]) = some (.ok (s' k, o' k)) := by
        intro k
        by_cases hk : k < n
        · have hs := h k hk
          rw [loop, if_pos hlt] at hs
          split at hs
          · simp at hs
          rename_i s1 e1
          split at hs
          · simp at hs
          rename_i s2 e2
          dsimp only at hs
          split at hs
          · simp at hs
          rename_i ob e3
          exact ⟨s1, s2, ob, fun _ => ⟨e1, e2, e3, hs⟩⟩
        · exact ⟨s k, s k, ⟨0, [], ()⟩, fun h => absurd h hk⟩
      choose s1 s2 ob hk using key
      obtain ⟨f1, e1, hf1⟩ := from_fleet n es he hn ae ae1 T.weights (fun k => (s k).state) hf.length now dt T.stages [] f s s1
        (by simp) hf (fun k hk' => (hk k hk').1)
      obtain ⟨f2, e2, hf2⟩ := force_fleet (fun k hk' => (he k hk').toSeated) ae ae1 T f1 s1 s2 hf1 now (fun k hk' => (hk k hk').2.1)
      obtain ⟨y, e3, hy, e4⟩ := observe_fleet h0 (fun k hk' => (he k hk').toSeated) ae ae1 T.stepper f2 s2 hf2 _ ob (fun k hk' => (hk k hk').2.2.1)
      obtain ⟨f', O', h1, h2, h3, h4⟩ := ih (i + 1) f2 s2 s' (tstart + ((i + 1 : Nat) : ℝ) * dt)
        (O ++ [(tstart + ((i + 1 : Nat) : ℝ) * dt, y)]) (fun k => o k ++ [ob k]) o' hf2
        (fun k hk' hs => by
          rw [List.map_append, List.map_append, hO k hk' hs, List.map_singleton, List.map_singleton, (e4 k hk').1, (e4 k hk').2 hs])
        (fun r hr => by
          rcases List.mem_append.1 hr with hr | hr
          · exact hl r hr
          · rw [List.mem_singleton.1 hr]
            exact hy)
        (fun k hk' => (hk k hk').2.2.2)
      refine ⟨f', O', ?_, h2, h3, h4⟩
      have e5 : (fleetSystem (fleetOf n es ae ae1) T.stepper).doStep f now dt = .ok f1 := by
        rw [← e1]
        simp only [fleetSystem, Tableau.stepper, hf.state, List.map_nil]
      rw [loop, if_pos hlt, e5]
      simp only [e2, e3]
      exact h1
    · simp only [loop, if_neg hlt] at h ⊢
      obtain ⟨e1, e2⟩ := hstop f s s' O o o' hf hO h
      exact ⟨f, O, rfl, e1, e2, hl⟩

/-- **C178** Bodies with different names, none of whose force models uses the position of another body: if the simulation of each
of them alone goes to the end, the simulation of all of them goes to the end, with at the end the states and the recorded states
that each body has when it is alone; and the states observed for each body are, date by date, those observed when it is alone
(for the bodies whose blocked states are written in the outputs: those that have none, and the last one, see C24).  This holds
for any number of bodies, any force models (with memory of the states, with or without commands), any blocked states, any
explicit Runge-Kutta method, any dates, time step, initial states and recorded states. -/
theorem bodies_move_as_alone (n : Nat) (h0 : 0 < n) (es : Nat → Entry ℝ) (he : ∀ k < n, Independent (es k))
    (hn : ((List.range n).map (fun k => (es k).body.name)).Nodup) (ae : Nat → ℝ → ℝ → Bool) (ae1 : ℝ → Bool) (T : Tableau ℝ)
    (tstart tend dt : ℝ) (fuel : Nat) (f : Fleet ℝ) (s s' : Nat → Sim ℝ (Vec3 ℝ × Vec3 ℝ)) (hf : Together n f s)
    (o : Nat → List (Res ℝ Unit))
    (h : ∀ k < n, quicksolve (simSystem (oneBody (es k) ae ae1) T.stepper) fuel (s k) tstart tend dt = some (.ok (s' k, o k))) :
    ∃ f' O, quicksolve (fleetSystem (fleetOf n es ae ae1) T.stepper) fuel f tstart tend dt = some (.ok (f', O)) ∧ Together n f' s' ∧
      (∀ k < n, Shown n es k → O.map (fun r => (r.1, block k r.2)) = (o k).map (fun r => (r.t, r.x))) ∧ ∀ r ∈ O, r.2.length = n * 13 := by
  have key : ∀ k, ∃ ob, k < n → (s k).observe (oneBody (es k) ae ae1) tstart = .ok ob ∧
      loop (simSystem (oneBody (es k) ae ae1) T.stepper) tstart tend dt fuel 0 (s k) tstart [ob] = some (.ok (s' k, o k)) := by
    intro k
    by_cases hk : k < n
    · have hs := h k hk
      rw [quicksolve] at hs
      split at hs
      · simp at hs
      rename_i ob e1
      exact ⟨ob, fun _ => ⟨e1, hs⟩⟩
    · exact ⟨⟨0, [], ()⟩, fun h => absurd h hk⟩
  choose ob hk using key
  obtain ⟨y, e3, hy, e4⟩ := observe_fleet h0 (fun k hk' => (he k hk').toSeated) ae ae1 T.stepper f s hf _ ob (fun k hk' => (hk k hk').1)
  rw [quicksolve, e3]
  exact loop_fleet n h0 es he hn ae ae1 T tstart tend dt fuel 0 f s s' tstart _ (fun k => [ob k]) o hf
    (fun k hk' hs => by
      rw [List.map_singleton, List.map_singleton, (e4 k hk').1, (e4 k hk').2 hs])
    (fun r hr => by
      rw [List.mem_singleton.1 hr]
      exact hy)
    (fun k hk' => (hk k hk').2)

/-! ### Two falling balls -/

/-- Gravity uses only the frame of the body. -/
theorem gravity_own (b : MBody ℝ) (M : Mat6 ℝ) (g : ℝ) : UsesOnly (fun n => n = "NED" ∨ OwnFrame b n) (gravityModel b M g) := by
  intro h t k k' hk
  have h0 : frameOf k "NED" = frameOf k' "NED" := by simp only [frameOf, if_true]
  have e1 : k.get b.name "NED" = k'.get b.name "NED" := by
    simp only [Kin.get, h0, hk b.name (Or.inr (Or.inl rfl))]
  refine ⟨by simp only [gravityModel, e1], fun tau e2 => ?_⟩
  unfold gravityModel at e2
  obtain ⟨T, -, e2⟩ := bind_ok e2
  cases e2
  exact Or.inr (Or.inl rfl)

/-- A ball with a name. -/
noncomputable def namedBall (name : String) : Entry ℝ :=
  ⟨{ ball with name := name }, [gravityModel { ball with name := name } ((2 : ℝ) • 1) 9.81], []⟩

theorem namedBall_free (name : String) (hn : name ≠ "NED") : FreeBody (namedBall name) ((2 : ℝ) • 1) 2 9.81 where
  idx := rfl
  name := hn
  free _ := rfl
  mass := ballInAir_free.mass
  inverse := by simp [namedBall, ball]
  coriolis _ := rfl
  forces := rfl
  controlled := rfl

theorem FreeBody.independent {e : Entry ℝ} {M : Mat6 ℝ} {m g : ℝ} (he : FreeBody e M m g) : Independent e where
  toSeated := he.toAlone.seated
  forces f hf := by
    rw [he.forces, List.mem_singleton] at hf
    rw [hf]
    exact gravity_own _ _ _
  controlled f hf := by rw [he.controlled] at hf; cases hf

/-- **C178** with C174: any number of bodies subject to gravity only, thrown at different places with different
velocities and attitudes, follow each its own parabola. -/
theorem falling_fleet (n : Nat) (h0 : 0 < n) (es : Nat → Entry ℝ) (M : Nat → Mat6 ℝ) (m : Nat → ℝ) (g : ℝ)
    (he : ∀ k < n, FreeBody (es k) (M k) (m k) g) (hn : ((List.range n).map (fun k => (es k).body.name)).Nodup)
    (ae : Nat → ℝ → ℝ → Bool) (hae : ∀ n a, ae n a a = true) (ae1 : ℝ → Bool) (f : Fleet ℝ) (tstart tend dt : ℝ) (hdt : 0 < dt)
    (H : Nat → States (History ℝ)) (hH : f.hist = (List.range n).map H) (hh : ∀ k < n, NotAfter ae (H k) tstart)
    (N : Nat) (hN : tend ≤ tstart + N * dt)
    (hfirst : ∀ i < N, tstart + (i : ℝ) * dt < tend) (fuel : Nat) (hf : N ≤ fuel)
    (p u : Nat → Vec3 ℝ) (q : Nat → Quat ℝ) (hq : ∀ k < n, Unit4 (q k)) (hs : f.state = cat n (fun k => vec13 (p k) (u k) 0 (q k))) :
    ∃ O, Completes (quicksolve (fleetSystem (fleetOf n es ae ae1) rk4Method.stepper) fuel f tstart tend dt) O ∧
      ∀ k < n, O.map (fun r => (r.1, block k r.2)) = (List.range (N + 1)).map (fun i : Nat => (tstart + (i : ℝ) * dt,
        vec13 (fallPosition (p k) (u k) (q k) g 0 (i * dt)) (fallVelocity (u k) (q k) g (i * dt)) 0 (q k))) := by
  let s : Nat → Sim ℝ (Vec3 ℝ × Vec3 ℝ) := fun k => ⟨vec13 (p k) (u k) 0 (q k), H k, f.commands, [], 0⟩
  have key : ∀ k, ∃ s' o, k < n → quicksolve (simSystem (oneBody (es k) ae ae1) rk4Method.stepper) fuel (s k) tstart tend dt = some (.ok (s', o)) ∧
      o.map (fun o => (o.t, o.x)) = (List.range (N + 1)).map (fun i : Nat => (tstart + (i : ℝ) * dt,
        vec13 (fallPosition (p k) (u k) (q k) g 0 (i * dt)) (fallVelocity (u k) (q k) g (i * dt)) 0 (q k))) := by
    intro k
    by_cases hk : k < n
    · obtain ⟨s', o, h1, h2⟩ := falling_body_rk4 (he k hk) ae hae ae1 (s k) tstart tend dt hdt (hh k hk) N hN hfirst fuel hf
        (p k) (u k) (q k) (hq k hk) rfl
      exact ⟨s', o, fun _ => ⟨h1, h2⟩⟩
    · exact ⟨s k, [], fun h => absurd h hk⟩
  choose s' o ho using key
  obtain ⟨f', O, h1, -, h2, -⟩ := bodies_move_as_alone n h0 es (fun k hk => (he k hk).independent) hn ae ae1 rk4Method tstart tend dt fuel f s s'
    ⟨hH, fun _ _ => rfl, fun _ _ => rfl, hs⟩ o (fun k hk => (ho k hk).1)
  exact ⟨O, ⟨f', h1⟩, fun k hk => by rw [h2 k hk (Or.inr (he k hk).free), (ho k hk).2]⟩

/-- Two balls, one of them upside down, for one second with a time step of 0.3 s. -/
example (ae1 : ℝ → Bool) (p u : Nat → Vec3 ℝ) (q : Nat → Quat ℝ) (hq : q = fun k => if k = 0 then ⟨1, 0, 0, 0⟩ else ⟨0, 1, 0, 0⟩) :
    ∃ O, Completes (quicksolve (fleetSystem (fleetOf 2 (fun k => namedBall (if k = 0 then "red" else "blue")) (fun _ a b => decide (a = b)) ae1)
        rk4Method.stepper) 10 ⟨cat 2 (fun k => vec13 (p k) (u k) 0 (q k)), [noHistory, noHistory], fun _ => none, [], []⟩ 0 1 0.3) O ∧
      ∀ k < 2, O.map (fun r => (r.1, block k r.2)) = (List.range 5).map (fun i : Nat => (0 + (i : ℝ) * 0.3,
        vec13 (fallPosition (p k) (u k) (q k) 9.81 0 (i * 0.3)) (fallVelocity (u k) (q k) 9.81 (i * 0.3)) 0 (q k))) := by
  refine falling_fleet 2 (by decide) _ (fun _ => (2 : ℝ) • 1) (fun _ => 2) 9.81
    (fun k _ => namedBall_free _ (by by_cases h : k = 0 <;> simp [h])) (by decide) _ (fun _ a => by simp) ae1 _ 0 1 0.3 (by norm_num)
    (fun _ => noHistory) rfl (fun _ _ => noHistory_notAfter _ _) 4 (by norm_num)
    (fun i hi => by
      have : (i : ℝ) ≤ 3 := by exact_mod_cast (by omega : i ≤ 3)
      linarith) 10 (by norm_num) p u q (fun k _ => ?_) rfl
  rw [hq]
  by_cases h : k = 0 <;> simp [h, Unit4]

/-- A ball that falls and a ball that is towed, as second body: its blocked states are written in the second block. -/
example (ae1 : ℝ → Bool) :
    ∃ f' O, quicksolve (fleetSystem (fleetOf 2 (fun k => if k = 0 then namedBall "red" else towedBall) (fun _ a b => decide (a = b)) ae1)
        rk4Method.stepper) 10 ⟨cat 2 (fun k => if k = 0 then vec13 0 ![1, 2, 3] 0 ⟨0, 1, 0, 0⟩ else vec13 0 ![3, 0, 0] 0 ⟨1, 0, 0, 0⟩),
          [noHistory, noHistory], fun _ => none, [], []⟩ 0 1 0.3 = some (.ok (f', O)) ∧
      O.map (fun r => (r.1, block 0 r.2)) = (List.range 5).map (fun i : Nat => (0 + (i : ℝ) * 0.3,
        vec13 (fallPosition 0 ![1, 2, 3] ⟨0, 1, 0, 0⟩ 9.81 0 (i * 0.3)) (fallVelocity ![1, 2, 3] ⟨0, 1, 0, 0⟩ 9.81 (i * 0.3)) 0 ⟨0, 1, 0, 0⟩)) ∧
      O.map (fun r => (r.1, block 1 r.2)) = (List.range 5).map (fun i : Nat => (0 + (i : ℝ) * 0.3,
        vec13 (straightLine 0 ![3, 0, 0] ⟨1, 0, 0, 0⟩ (i * 0.3)) ![3, 0, 0] 0 ⟨1, 0, 0, 0⟩)) := by
  have h4 : ∀ i : Nat, i < 4 → 0 + (i : ℝ) * 0.3 < 1 := fun i hi => by
    have : (i : ℝ) ≤ 3 := by exact_mod_cast (by omega : i ≤ 3)
    linarith
  have hred := namedBall_free "red" (by decide)
  obtain ⟨s0, o0, a1, a2⟩ := falling_body_rk4 hred (fun _ a b => decide (a = b)) (fun _ a => by simp) ae1
    ⟨vec13 0 ![1, 2, 3] 0 ⟨0, 1, 0, 0⟩, noHistory, fun _ => none, [], 0⟩ 0 1 0.3 (by norm_num) (noHistory_notAfter _ _) 4 (by norm_num)
    h4 10 (by norm_num) 0 ![1, 2, 3] ⟨0, 1, 0, 0⟩ (by simp [Unit4]) rfl
  obtain ⟨s1, o1, b1, b2⟩ := captive_body_partial (fun _ a b => decide (a = b)) (fun _ a => by simp) ae1 rk4Method rk4_forward
    (by simp only [rk4Method, Consistent, List.length_cons, List.length_nil, List.sum_cons, List.sum_nil]; norm_num)
    (by simp [rk4Method]) (by simp only [rk4Method, List.sum_cons, List.sum_nil]; norm_num)
    ⟨vec13 0 ![3, 0, 0] 0 ⟨1, 0, 0, 0⟩, noHistory, fun _ => none, [], 0⟩ 0 1 0.3 (by norm_num) (noHistory_notAfter _ _) 4 (by norm_num)
    h4 10 (by norm_num) 0 ![3, 0, 0] ⟨1, 0, 0, 0⟩ (by simp [Unit4]) rfl towedBall_captive
    (fun h p u t => towedBall_forces _ h p u _ t) rfl _ (Or.inr rfl)
  have hind : ∀ k < 2, Independent (if k = 0 then namedBall "red" else towedBall) := by
    intro k _
    by_cases h : k = 0
    · rw [if_pos h]; exact hred.independent
    · rw [if_neg h]
      exact ⟨⟨rfl, show "ball" ≠ "NED" by decide, Or.inl rfl⟩, fun f hf => by rw [List.mem_singleton.1 hf]; exact gravity_own _ _ _,
        fun f hf => by cases hf⟩
  obtain ⟨f', O, c1, -, c2, -⟩ := bodies_move_as_alone 2 (by decide) (fun k => if k = 0 then namedBall "red" else towedBall) hind (by decide)
    (fun _ a b => decide (a = b)) ae1 rk4Method 0 1 0.3 10
    ⟨cat 2 (fun k => if k = 0 then vec13 0 ![1, 2, 3] 0 ⟨0, 1, 0, 0⟩ else vec13 0 ![3, 0, 0] 0 ⟨1, 0, 0, 0⟩),
      [noHistory, noHistory], fun _ => none, [], []⟩
    (fun k => if k = 0 then ⟨vec13 0 ![1, 2, 3] 0 ⟨0, 1, 0, 0⟩, noHistory, fun _ => none, [], 0⟩ else
      ⟨vec13 0 ![3, 0, 0] 0 ⟨1, 0, 0, 0⟩, noHistory, fun _ => none, [], 0⟩)
    (fun k => if k = 0 then s0 else s1)
    ⟨rfl, fun k _ => by by_cases h : k = 0 <;> simp [h], fun k _ => by by_cases h : k = 0 <;> simp [h, vec13],
      cat_congr fun k _ => by by_cases h : k = 0 <;> simp [h]⟩ (fun k => if k = 0 then o0 else o1)
    (fun k _ => by
      by_cases h : k = 0
      · simp only [h, if_true]; exact a1
      · simp only [h, if_false]; exact b1)
  refine ⟨f', O, c1, ?_, ?_⟩
  · rw [c2 0 (by decide) (Or.inr hred.free)]; exact a2
  · rw [c2 1 (by decide) (Or.inl rfl)]; exact b2

end Xdyn.Sim
