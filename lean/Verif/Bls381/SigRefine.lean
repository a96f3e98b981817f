import Verif.Bls381.Sig

/-!
# The stored BLS functions compute the abstract ones
-/

set_option linter.unusedSectionVars false
set_option maxRecDepth 20000

namespace Verif.Bls381.Sig
open Verif.Native Verif.Bytes Verif.Bls381.Inst Verif.Bls381.Pair

noncomputable instance : DecidableEq Ate.U12 := Classical.decEq _

/-- Two results agree: both are the same failure, or both succeed with related values. -/
inductive RelRes {A C : Type} (R : A → C → Prop) : Res A → Res C → Prop
  | ok {a c} : R a c → RelRes R (.ok a) (.ok c)
  | err : RelRes R .err .err
  | panic : RelRes R .panic .panic

theorem RelRes.bind {A C B D : Type} {R : A → C → Prop} {T : B → D → Prop} {x : Res A} {y : Res C} (h : RelRes R x y) {f : A → Res B} {g : C → Res D}
    (hf : ∀ a c, R a c → RelRes T (f a) (g c)) : RelRes T (x >>= f) (y >>= g) := by
  cases h with
  | ok h => exact hf _ _ h
  | err => exact .err
  | panic => exact .panic

theorem RelRes.eq {A : Type} {x y : Res A} (h : RelRes (· = ·) x y) : x = y := by
  cases h with
  | ok h => rw [h]
  | err => rfl
  | panic => rfl

theorem RelRes.of_eq {A : Type} {x y : Res A} (h : x = y) : RelRes (· = ·) x y := by
  subst h
  cases x with
  | ok => exact .ok rfl
  | err => exact .err
  | panic => exact .panic

theorem RelRes.ok_left {A C : Type} {R : A → C → Prop} {a : A} {y : Res C} (h : RelRes R (.ok a) y) : ∃ c, y = .ok c ∧ R a c := by
  cases h with
  | ok h => exact ⟨_, rfl, h⟩

theorem RelRes.ok_right {A C : Type} {R : A → C → Prop} {x : Res A} {c : C} (h : RelRes R x (.ok c)) : ∃ a, x = .ok a ∧ R a c := by
  cases h with
  | ok h => exact ⟨_, rfl, h⟩

theorem RelRes.foldlM {A C B D : Type} {R : A → C → Prop} {T : B → D → Prop} {f : A → B → Res A} {g : C → D → Res C}
    (h : ∀ a c b d, R a c → T b d → RelRes R (f a b) (g c d)) {l : List B} {m : List D} (hl : List.Forall₂ T l m) :
    ∀ {a c}, R a c → RelRes R (l.foldlM f a) (m.foldlM g c) := by
  induction hl with
  | nil => intro a c hr; exact .ok hr
  | cons hb _ ih =>
    intro a c hr
    rw [List.foldlM_cons, List.foldlM_cons]
    exact (h _ _ _ _ hr hb).bind fun _ _ hr' => ih hr'

section
variable {A G C : Type} [AddCommGroup G] [Module K G]

/-- The stored functions of a group represent those of the curve. -/
structure SideOK (W : Side A) (cu : Bls.CurveGroup K G C) (R : A → C → Prop) : Prop where
  zero : R W.zero (cu.ι 0)
  add : ∀ {a b P Q}, R a P → R b Q → R (W.add a b) (cu.add P Q)
  mul : ∀ {a P s k}, R a P → Native.Rep Fq.q s k → R (W.mul a s) (cu.mul P k)
  isId : ∀ {a P}, R a P → (W.isId a = 1 ↔ cu.isId P = true)
  inSub : ∀ {a P}, R a P → (W.inSub a = 0 ↔ ¬ cu.inSub P = true)
  enc : ∀ {a b P}, R a P → R b P → W.enc a = W.enc b
  unique : ∀ {a P Q}, R a P → R a Q → P = Q

theorem aggregate_ref {W : Side A} {cu : Bls.CurveGroup K G C} {R : A → C → Prop} (h : SideOK W cu R) {l : List A} {m : List C} (hl : List.Forall₂ R l m) :
    RelRes R (aggregate W l) (if m.length < 1 then Res.err else
      m.foldlM (fun r s => if !cu.inSub s then Res.err else Res.ok (cu.add r s)) (cu.ι 0)) := by
  unfold aggregate
  rw [hl.length_eq]
  split
  · exact .err
  · refine RelRes.foldlM ?_ hl h.zero
    intro a c b d hr ht
    by_cases hs : cu.inSub d = true
    · rw [if_neg (by rw [h.inSub ht]; exact not_not_intro hs), hs]
      exact .ok (h.add hr ht)
    · rw [if_pos ((h.inSub ht).2 hs), Bool.eq_false_iff.2 hs]
      exact .err

end

theorem side1_ok : SideOK side1 curve1 G1.Rep where
  zero := P3.identity_spec G1.FOk
  add := P3.add_spec G1.FOk
  mul := fun h hs => (G1.C94_mul h hs).1
  isId := fun {a P} h => by
    show P3.isIdentity G1.F a = 1 ↔ decide (P = 0) = true
    rw [P3.isIdentity_spec G1.FOk h, P3.flag_iff, decide_eq_true_iff]
  inSub := fun {a P} h => by
    show P3.inCorrectSubgroup G1.F a = 0 ↔ ¬ decide (Fq.q • P = 0) = true
    rw [G1.sub_spec' h, decide_eq_true_iff]
    by_cases hq : Fq.q • P = 0
    · rw [if_pos hq]; exact ⟨fun h => absurd h (by decide), fun h => absurd hq h⟩
    · rw [if_neg hq]; exact ⟨fun _ => hq, fun _ => rfl⟩
  enc := fun h h' => (G1.C95_injective h h').2 rfl
  unique := P3.hrep_unique G1.FOk

theorem side2_ok : SideOK side2 curve2 G2.Rep where
  zero := P3.identity_spec G2.FOk
  add := P3.add_spec G2.FOk
  mul := fun h hs => (G2.C96_mul h hs).1
  isId := fun {a P} h => by
    show P3.isIdentity G2.F a = 1 ↔ decide (P = 0) = true
    rw [P3.isIdentity_spec G2.FOk h, P3.flag_iff, decide_eq_true_iff]
  inSub := fun {a P} h => by
    show P3.inCorrectSubgroup G2.F a = 0 ↔ ¬ decide (Fq.q • P = 0) = true
    rw [G2.sub_spec' h, decide_eq_true_iff]
    by_cases hq : Fq.q • P = 0
    · rw [if_pos hq]; exact ⟨fun h => absurd h (by decide), fun h => absurd hq h⟩
    · rw [if_neg hq]; exact ⟨fun _ => hq, fun _ => rfl⟩
  enc := fun h h' => (G2.C97_injective h h').2 rfl
  unique := P3.hrep_unique G2.FOk

/-! ## The engine -/

theorem engRep_order {e : Engine} {t : Ate.U12} (h : EngRep e t) : t ^ Fq.q = 1 := by
  obtain ⟨ds, -, rfl⟩ := h
  rw [inv_pow, FF_ord, inv_one]

theorem check_spec {e : Engine} {t : Ate.U12} (h : EngRep e t) : check e = decide (t = 1) := by
  have h1 := pairing_spec h
  have ho := val_order (engRep_order h)
  obtain ⟨-, -, -, -, -, -, -, -, -, h2⟩ := Gt.C93_group h1 h1 ho ho
  have e1 : t.val = 1 ↔ t = 1 := ⟨fun h => Ate.UG.ext (h.trans Ate.UG.val_one.symm), fun h => by rw [h, Ate.UG.val_one]⟩
  unfold check
  exact decide_eq_decide.2 (h2.trans e1)

/-! ## Environments -/

open Classical in
/-- The bytes of a point: those of any stored form. -/
noncomputable def bytesOf {A C : Type} (W : Side A) (R : A → C → Prop) (P : C) : List UInt8 :=
  if h : ∃ a, R a P then W.enc h.choose else []

/-- The 32-byte big-endian scalar coding. -/
def codecK : Sharing.Codec K := Sharing.beCodec Fq.q 32 (by decide +kernel)

/-- The abstract environment for keys in G1. -/
noncomputable def envU (h : List UInt8 → List UInt8 → sub2) : Bls.Env K sub1 sub2 Ate.U12 G1.PP G2.PP where
  variant := ⟨false⟩
  E := Inst.pairing
  kp := curve1
  sg := curve2
  neg_p P := -P
  neg_p_ι _ := rfl
  neg_s P := -P
  neg_s_ι _ := rfl
  pair P Q := ee P Q
  pair_ι _ _ := rfl
  hash := h
  pkBytes := bytesOf side1 G1.Rep
  sc := codecK

/-- The abstract environment for keys in G2. -/
noncomputable def envT (h : List UInt8 → List UInt8 → sub1) : Bls.Env K sub2 sub1 Ate.U12 G2.PP G1.PP where
  variant := ⟨true⟩
  E := pairing'
  kp := curve2
  sg := curve1
  neg_p P := -P
  neg_p_ι _ := rfl
  neg_s P := -P
  neg_s_ι _ := rfl
  pair Q P := ee P Q
  pair_ι _ _ := rfl
  hash := h
  pkBytes := bytesOf side2 G2.Rep
  sc := codecK

variable {KA SA P S CP CS : Type} [AddCommGroup P] [Module K P] [AddCommGroup S] [Module K S]

/-- A scheme represents an environment; `ok` are the keys for which the pairing of the engine is specified. -/
structure SchemeOK (W : Scheme KA SA) (V : Bls.Env K P S Ate.U12 CP CS) (RK : KA → CP → Prop) (RS : SA → CS → Prop) (ok : CP → Prop) : Prop where
  k : SideOK W.k V.kp RK
  s : SideOK W.s V.sg RS
  gen : RK W.k.gen (Bls.gen V)
  hash : ∀ m d, RS (W.hash m d) (Bls.hashPt V m d)
  bytes : ∀ {a p}, RK a p → W.k.enc a = V.pkBytes p
  sc : V.sc = codecK
  empty : W.refuseEmpty = !V.variant.minSig
  verify : ∀ {pk p m d sig q}, RK pk p → ok p → RS sig q → V.sg.inSub q = true →
    EngRep (W.verifyEngine pk (W.hash m d) sig) (if V.variant.minSig = true
      then V.pair p (V.neg_s (Bls.hashPt V m d)) * V.pair (Bls.gen V) q
      else V.pair p (Bls.hashPt V m d) * V.pair (V.neg_p (Bls.gen V)) q)
  addKey : ∀ {e t pk p m d}, EngRep e t → RK pk p → V.kp.inSub p = true →
    EngRep (W.addKey e pk (W.hash m d)) (t * V.pair p (Bls.hashPt V m d))
  closeAgg : ∀ {e t sig q}, EngRep e t → RS sig q → V.sg.inSub q = true →
    EngRep (W.closeAgg e sig) (t * V.pair (V.neg_p (Bls.gen V)) q)
  okSub : ∀ {p}, V.kp.inSub p = true → ok p

theorem bytesOf_eq {A G C : Type} [AddCommGroup G] [Module K G] {W : Side A} {cu : Bls.CurveGroup K G C} {R : A → C → Prop} (h : SideOK W cu R)
    {a : A} {p : C} (ha : R a p) : W.enc a = bytesOf W R p := by
  unfold bytesOf
  have hx : ∃ a, R a p := ⟨a, ha⟩
  rw [dif_pos hx]
  exact h.enc ha hx.choose_spec

theorem usual_ok {hash : List UInt8 → List UInt8 → G2.Point} {h : List UInt8 → List UInt8 → sub2} (hh : ∀ m d, G2.Rep (hash m d) (h m d).1) :
    SchemeOK (usual hash) (envU h) G1.Rep G2.Rep (fun _ => True) where
  k := side1_ok
  s := side2_ok
  gen := G1.generator_rep
  hash := hh
  bytes := bytesOf_eq side1_ok
  sc := rfl
  empty := rfl
  verify := fun {pk p m d sig q} h1 _ h2 h3 => by
    rw [if_neg (show ¬ (envU h).variant.minSig = true from Bool.false_ne_true)]
    have hs : Fq.q • q = 0 := of_decide_eq_true h3
    have a := addPair_spec eng_nil h1 (hh m d) (mem_sub2.1 (h m d).2)
    rw [one_mul] at a
    exact addPair_spec a (P3.neg_spec G1.FOk G1.generator_rep) h2 hs
  addKey := fun {e t pk p m d} he h1 _ => addPair_spec he h1 (hh m d) (mem_sub2.1 (h m d).2)
  closeAgg := fun {e t sig q} he h2 h3 => addPair_spec he (P3.neg_spec G1.FOk G1.generator_rep) h2 (of_decide_eq_true h3)
  okSub := fun _ => trivial

theorem tiny_ok {hash : List UInt8 → List UInt8 → G1.Point} {h : List UInt8 → List UInt8 → sub1} (hh : ∀ m d, G1.Rep (hash m d) (h m d).1) :
    SchemeOK (tiny hash) (envT h) G2.Rep G1.Rep (fun p => Fq.q • p = 0) where
  k := side2_ok
  s := side1_ok
  gen := G2.generator_rep
  hash := hh
  bytes := bytesOf_eq side2_ok
  sc := rfl
  empty := rfl
  verify := fun {pk p m d sig q} h1 hp h2 h3 => by
    rw [if_pos (show (envT h).variant.minSig = true from rfl)]
    have a := addPair_spec eng_nil (P3.neg_spec G1.FOk (hh m d)) h1 hp
    rw [one_mul] at a
    exact addPair_spec a h2 G2.generator_rep G2.order_G
  addKey := fun {e t pk p m d} he h1 hp => addPair_spec he (hh m d) h1 (of_decide_eq_true hp)
  closeAgg := fun {e t sig q} he h2 h3 => by
    have hn : Fq.q • (-G2.G) = 0 := by rw [smul_neg, G2.order_G, neg_zero]
    exact addPair_spec he h2 (P3.neg_spec G2.FOk G2.generator_rep) hn
  okSub := fun h => of_decide_eq_true h

/-! ## Refinement -/

section
variable {W : Scheme KA SA} {V : Bls.Env K P S Ate.U12 CP CS} {RK : KA → CP → Prop} {RS : SA → CS → Prop} {ok : CP → Prop}
  (H : SchemeOK W V RK RS ok)
include H

theorem getPublicKey_ref {sk : L4} {x : K} (hs : Native.Rep Fq.q sk x) : RelRes RK (getPublicKey W sk) (Bls.getPublicKey V x) := by
  have h := H.k.mul H.gen hs
  unfold getPublicKey Bls.getPublicKey
  dsimp only
  by_cases h1 : V.kp.inSub (V.kp.mul (Bls.gen V) x) = true
  · by_cases h2 : V.kp.isId (V.kp.mul (Bls.gen V) x) = true
    · rw [if_pos (Or.inr ((H.k.isId h).2 h2)), h2, Bool.or_true]
      exact .err
    · rw [if_neg (by rw [H.k.inSub h, H.k.isId h]; tauto), h1, Bool.eq_false_iff.2 h2]
      exact .ok h
  · rw [if_pos (Or.inl ((H.k.inSub h).2 h1)), Bool.eq_false_iff.2 h1]
    exact .err

theorem createSignature_ref {sk : L4} {x : K} (hs : Native.Rep Fq.q sk x) (m : Option (List UInt8)) (d : List UInt8) :
    RelRes RS (createSignature W sk m d) (Bls.createSignature V x m d) := by
  cases m with
  | none => exact .err
  | some m =>
    have h := H.s.mul (H.hash m d) hs
    have hz := (Fq.C90_scalar_tests hs hs).1
    unfold createSignature Bls.createSignature
    dsimp only
    by_cases hx : x = 0
    · rw [if_pos (hz.2 hx), if_pos hx]
      exact .err
    · rw [if_neg (by rw [hz]; exact hx), if_neg hx]
      by_cases h1 : V.sg.inSub (V.sg.mul (Bls.hashPt V m d) x) = true
      · rw [if_neg (by rw [H.s.inSub h]; exact not_not_intro h1), h1]
        exact .ok h
      · rw [if_pos ((H.s.inSub h).2 h1), Bool.eq_false_iff.2 h1]
        exact .err

theorem verifySignature_ref {pk : KA} {p : CP} (hp : RK pk p) (hok : ok p) {sig : SA} {q : CS} (hq : RS sig q) (m : Option (List UInt8)) (d : List UInt8) :
    verifySignature W pk m sig d = Bls.verifySignature V p m q d := by
  cases m with
  | none => rfl
  | some m =>
    unfold verifySignature Bls.verifySignature
    dsimp only
    by_cases h0 : V.kp.isId p = true
    · rw [if_pos ((H.k.isId hp).2 h0), if_pos h0]
    · rw [if_neg (by rw [H.k.isId hp]; exact h0), if_neg h0]
      by_cases h1 : V.sg.isId q = true
      · rw [if_pos (Or.inl ((H.s.isId hq).2 h1)), h1, Bool.true_or, if_pos rfl]
      · by_cases h2 : V.sg.inSub q = true
        · rw [if_neg (by rw [H.s.isId hq, H.s.inSub hq]; tauto), Bool.eq_false_iff.2 h1, h2, Bool.not_true, Bool.or_false,
            if_neg (by decide), check_spec (H.verify hp hok hq h2)]
          by_cases hv : V.variant.minSig = true
          · simp only [if_pos hv]
          · simp only [if_neg hv]
        · rw [if_pos (Or.inr ((H.s.inSub hq).2 h2)), Bool.eq_false_iff.2 h2, Bool.not_false, Bool.or_true, if_pos rfl]

theorem aggLoop_ref (d : List UInt8) {l : List (KA × List UInt8)} {m : List (CP × List UInt8)}
    (hl : List.Forall₂ (fun a c => RK a.1 c.1 ∧ a.2 = c.2) l m) : ∀ {e t}, EngRep e t → RelRes EngRep (aggLoop W d l e) (Bls.aggLoop V d m t) := by
  induction hl with
  | nil => intro e t he; exact .ok he
  | @cons a c l m h _ ih =>
    intro e t he
    obtain ⟨pk, ms⟩ := a
    obtain ⟨p, ms'⟩ := c
    obtain ⟨hp, hms⟩ := h
    dsimp only at hms hp
    subst hms
    unfold aggLoop Bls.aggLoop
    by_cases h1 : V.kp.isId p = true
    · rw [if_pos (Or.inl ((H.k.isId hp).2 h1)), h1, Bool.true_or, if_pos rfl]
      exact .err
    · by_cases h2 : V.kp.inSub p = true
      · rw [if_neg (by rw [H.k.isId hp, H.k.inSub hp]; tauto), Bool.eq_false_iff.2 h1, h2, Bool.not_true, Bool.or_false, if_neg (by decide)]
        exact ih (H.addKey he hp h2)
      · rw [if_pos (Or.inr ((H.k.inSub hp).2 h2)), Bool.eq_false_iff.2 h2, Bool.not_false, Bool.or_true, if_pos rfl]
        exact .err

omit H in
theorem zip_rel {pks : List KA} {ps : List CP} (h : List.Forall₂ RK pks ps) (msgs : List (List UInt8)) :
    List.Forall₂ (fun a c => RK a.1 c.1 ∧ a.2 = c.2) (pks.zip msgs) (ps.zip msgs) := by
  induction h generalizing msgs with
  | nil => exact .nil
  | cons h _ ih =>
    cases msgs with
    | nil => exact .nil
    | cons m ms => exact .cons ⟨h, rfl⟩ (ih ms)

theorem coreAggregateVerify_ref {sig : SA} {q : CS} (hq : RS sig q) {pks : List KA} {ps : List CP} (hp : List.Forall₂ RK pks ps)
    (msgs : List (List UInt8)) (d : List UInt8) : coreAggregateVerify W sig pks msgs d = Bls.coreAggregateVerify V q ps msgs d := by
  unfold coreAggregateVerify Bls.coreAggregateVerify
  rw [hp.length_eq]
  split
  · rfl
  split
  · rfl
  split
  · rfl
  by_cases h2 : V.sg.inSub q = true
  · rw [if_neg (by rw [H.s.inSub hq]; exact not_not_intro h2), h2, Bool.not_true, if_neg (by decide)]
    refine RelRes.eq ((aggLoop_ref H d (zip_rel hp msgs) eng_nil).bind fun e t he => ?_)
    rw [check_spec (H.closeAgg he hq h2)]
    exact .ok rfl
  · rw [if_pos ((H.s.inSub hq).2 h2), Bool.eq_false_iff.2 h2, Bool.not_false, if_pos rfl]

theorem aggregatePublicKeys_ref {pks : List KA} {ps : List CP} (hp : List.Forall₂ RK pks ps) :
    RelRes RK (aggregate W.k pks) (Bls.aggregatePublicKeys V ps) := by
  unfold Bls.aggregatePublicKeys
  exact aggregate_ref H.k hp

theorem aggregateSignatures_ref {sigs : List SA} {qs : List CS} (hq : List.Forall₂ RS sigs qs) :
    RelRes RS (aggregate W.s sigs) (Bls.aggregateSignatures V qs) := by
  unfold Bls.aggregateSignatures
  exact aggregate_ref H.s hq

theorem basicAggregateVerify_ref {pks : List KA} {ps : List CP} (hp : List.Forall₂ RK pks ps) {sigs : List SA} {qs : List CS}
    (hq : List.Forall₂ RS sigs qs) (msgs : List (List UInt8)) (d : List UInt8) :
    basicAggregateVerify W d pks msgs sigs = Bls.basicAggregateVerify V d ps msgs qs := by
  unfold basicAggregateVerify Bls.basicAggregateVerify
  split
  · rfl
  · exact RelRes.eq ((aggregateSignatures_ref H hq).bind fun a c h => .of_eq (coreAggregateVerify_ref H h hp msgs d))

theorem augSign_ref {sk : L4} {x : K} (hs : Native.Rep Fq.q sk x) (m d : List UInt8) : RelRes RS (augSign W d sk m) (Bls.augSign V d x m) := by
  unfold augSign Bls.augSign
  rw [H.empty]
  split
  · exact .err
  · refine (getPublicKey_ref H hs).bind fun a c h => ?_
    rw [H.bytes h]
    exact createSignature_ref H hs _ d

theorem augVerify_ref {pk : KA} {p : CP} (hp : RK pk p) (hok : ok p) {sig : SA} {q : CS} (hq : RS sig q) (m d : List UInt8) :
    augVerify W d pk m sig = Bls.augVerify V d p m q := by
  unfold augVerify Bls.augVerify
  rw [H.bytes hp]
  exact verifySignature_ref H hp hok hq _ d

theorem augAggregateVerify_ref {pks : List KA} {ps : List CP} (hp : List.Forall₂ RK pks ps) {sigs : List SA} {qs : List CS}
    (hq : List.Forall₂ RS sigs qs) (msgs : List (List UInt8)) (d : List UInt8) :
    augAggregateVerify W d pks msgs sigs = Bls.augAggregateVerify V d ps msgs qs := by
  have hd : (pks.zip msgs).map (fun pm => W.k.enc pm.1 ++ pm.2) = (ps.zip msgs).map (fun pm => V.pkBytes pm.1 ++ pm.2) := by
    have hz := zip_rel hp msgs
    generalize pks.zip msgs = a at hz
    generalize ps.zip msgs = b at hz
    induction hz with
    | nil => rfl
    | cons h _ ih => rw [List.map_cons, List.map_cons, ih, H.bytes h.1, h.2]
  unfold augAggregateVerify Bls.augAggregateVerify
  rw [hp.length_eq]
  split
  · rfl
  · dsimp only
    rw [hd]
    exact RelRes.eq ((aggregateSignatures_ref H hq).bind fun a c h => .of_eq (coreAggregateVerify_ref H h hp _ d))

theorem popProve_ref {sk : L4} {x : K} (hs : Native.Rep Fq.q sk x) (d : List UInt8) : RelRes RS (popProve W d sk) (Bls.popProve V d x) := by
  unfold popProve Bls.popProve
  refine (getPublicKey_ref H hs).bind fun a c h => ?_
  rw [H.bytes h]
  exact createSignature_ref H hs _ d

theorem popVerify_ref {pk : KA} {p : CP} (hp : RK pk p) (hok : ok p) {sig : SA} {q : CS} (hq : RS sig q) (d : List UInt8) :
    popVerify W d pk sig = Bls.popVerify V d p q := by
  unfold popVerify Bls.popVerify
  rw [H.bytes hp]
  exact verifySignature_ref H hp hok hq _ d

/-- An aggregated key lies in the subgroup. -/
theorem aggregate_sub {ps : List CP} {r : CP} (h : Bls.aggregatePublicKeys V ps = .ok r) : V.kp.inSub r = true := by
  obtain ⟨-, gs, -, rfl⟩ := (Bls.aggregatePublicKeys_iff V ps r).1 h
  exact (V.kp.inSub_iff _).2 ⟨_, rfl⟩

theorem fastAggregateVerify_ref {pks : List KA} {ps : List CP} (hp : List.Forall₂ RK pks ps) {sig : SA} {q : CS} (hq : RS sig q)
    (m : Option (List UInt8)) (d : List UInt8) : fastAggregateVerify W d pks m sig = Bls.fastAggregateVerify V d ps m q := by
  unfold fastAggregateVerify Bls.fastAggregateVerify
  have h := aggregatePublicKeys_ref H hp
  cases e : Bls.aggregatePublicKeys V ps with
  | ok r =>
    rw [e] at h
    obtain ⟨a, ha, hr⟩ := h.ok_right
    rw [ha]
    exact verifySignature_ref H hr (H.okSub (aggregate_sub H e)) hq m d
  | err =>
    rw [e] at h
    generalize aggregate W.k pks = x at h
    cases h
    rfl
  | panic =>
    rw [e] at h
    generalize aggregate W.k pks = x at h
    cases h
    rfl

theorem fastAggregateVerifyConstituent_ref {pks : List KA} {ps : List CP} (hp : List.Forall₂ RK pks ps) {sigs : List SA} {qs : List CS}
    (hq : List.Forall₂ RS sigs qs) (m : Option (List UInt8)) (d : List UInt8) :
    fastAggregateVerifyConstituent W d pks m sigs = Bls.fastAggregateVerifyConstituent V d ps m qs := by
  unfold fastAggregateVerifyConstituent Bls.fastAggregateVerifyConstituent
  exact RelRes.eq ((aggregateSignatures_ref H hq).bind fun a c h => .of_eq (fastAggregateVerify_ref H hp h m d))

end

/-! ## Threshold signatures -/

theorem mul_neg_rep {a r : L4} {y w : K} (ha : Native.Rep Fq.q a y) (hr : Native.Rep Fq.q r w) : Native.Rep Fq.q (Fq.impl.A.mul (Fq.impl.A.neg a) r) (-y * w) := by
  have hm : Fq.impl.A.mul = Fq.mul := by rw [Fq.e_A, Fq.a_mul]
  have hm' : Fq.arithFix.mul = Fq.mul := Fq.a_mul'
  by_cases h : y = 0
  · subst h
    have e : Fq.impl.A.neg a = Fq.modulus := (Fq.C90_neg_zero_not_canonical ha).1
    rw [e, hm, neg_zero, zero_mul]
    have h := Fq.redc_mul Fq.modulus r (by
      rw [Nat.mul_comm, Fq.modulus_val]; exact Nat.mul_lt_mul_of_pos_right r.val_lt (by decide +kernel))
    refine Fq.lawful.redc h ?_
    rw [Fq.modulus_val, Nat.cast_mul, ZMod.natCast_self, zero_mul, zero_mul, zero_mul]
  · have hn : Native.Rep Fq.q (Fq.impl.A.neg a) (-y) := Fq.C90_scalar_neg ha h
    have := C50_mul Fq.lawful hn hr
    rw [hm'] at this
    rw [hm]
    exact this

theorem basisAt_ref {xs : List L4} {ys : List K} (h : List.Forall₂ (Native.Rep Fq.q) xs ys) (i : Nat) {xi : L4} {yi : K} (hi : Native.Rep Fq.q xi yi) :
    RelRes (Native.Rep Fq.q) (basisAt xs i xi) (Bls.basisAt ys i yi) := by
  have hz : ∀ n, List.Forall₂ (fun (a : L4 × Nat) (c : K × Nat) => Native.Rep Fq.q a.1 c.1 ∧ a.2 = c.2) (xs.zipIdx n) (ys.zipIdx n) := by
    induction h with
    | nil => intro n; exact .nil
    | cons h _ ih =>
      intro n
      rw [List.zipIdx_cons, List.zipIdx_cons]
      exact .cons ⟨h, rfl⟩ (ih _)
  have h1 : Native.Rep Fq.q (Field.one Fq.impl.P) (1 : K) := by rw [Fq.e_P]; exact (C50_constants Fq.lawful).1
  unfold basisAt Bls.basisAt
  refine RelRes.foldlM ?_ (hz 0) h1
  rintro b c ⟨x, n⟩ ⟨y, n'⟩ hb ⟨hx, hn⟩
  dsimp only at hx hn ⊢
  subst hn
  by_cases hin : i = n
  · rw [if_pos hin, if_pos hin]
    exact .ok hb
  · rw [if_neg hin, if_neg hin]
    have hd : Native.Rep Fq.q (Fq.impl.A.sub xi x) (yi - y) := (Fq.C90_scalar_ring hi hx hx).2.2.2.1
    obtain ⟨g1, g0⟩ := Fq.good.invert (Fq.impl.A.sub xi x) _ _ hd
    rw [← Fq.e_invert] at g1 g0
    by_cases hy : yi - y = 0
    · have e0 := g0 hy
      rw [if_pos hy, if_pos (by rw [e0]; dsimp only; decide)]
      exact .err
    · obtain ⟨v, e1, hv⟩ := g1 hy
      rw [if_neg hy, e1, if_neg (by dsimp only; decide)]
      refine .ok ?_
      exact (Fq.C90_scalar_ring hb (mul_neg_rep hx hv) hb).2.2.2.2.1

section
variable {W : Scheme KA SA} {V : Bls.Env K P S Ate.U12 CP CS} {RK : KA → CP → Prop} {RS : SA → CS → Prop} {ok : CP → Prop}
  (H : SchemeOK W V RK RS ok)
include H

theorem partialSign_ref (d : List UInt8) (sks : Bls.KeyShare) (h32 : sks.value.length = 32) (m : List UInt8) :
    RelRes (fun a c => a.identifier = c.identifier ∧ RS a.signature c.signature) (partialSign W d sks m) (Bls.partialSign V d sks m) := by
  have hb : (sks.value.reverse ++ List.replicate 32 0).take 32 = sks.value.reverse := by
    rw [List.take_append_of_le_length (by rw [List.length_reverse]; omega), List.take_of_length_le (by rw [List.length_reverse]; omega)]
  unfold partialSign Bls.partialSign
  split
  · exact .err
  · dsimp only
    rw [hb, H.sc]
    have hr : RelRes (Native.Rep Fq.q) (Field.setBytes Fq.impl.A Fq.impl.P sks.value.reverse) (Res.ofOption (codecK.setBytes sks.value)) := by
      rw [Fq.e_P, Fq.setBytes_eq]
      have hc : codecK.setBytes sks.value = if sks.value.length = 32 ∧ beToNat sks.value < Fq.q then some (beToNat sks.value : K) else none := rfl
      have hbe : leToNat sks.value.reverse = beToNat sks.value := by
        rw [← beToNat_reverse, List.reverse_reverse]
      obtain ⟨s1, s2⟩ := C50_setBytes Fq.lawful sks.value.reverse (by rw [List.length_reverse, h32])
      rw [hbe] at s1 s2
      rw [hc]
      by_cases hlt : beToNat sks.value < Fq.q
      · rw [if_pos ⟨h32, hlt⟩]
        obtain ⟨a, ha, hr⟩ := s1 hlt
        have ha' : Field.setBytes Fq.implFix.A Fq.implFix.P sks.value.reverse = .ok a := ha
        rw [ha']
        exact .ok hr
      · rw [if_neg (fun h => hlt h.2)]
        have he := s2 (by omega)
        have he' : Field.setBytes Fq.implFix.A Fq.implFix.P sks.value.reverse = .err := he
        rw [he']
        exact .err
    refine hr.bind fun s x hs => ?_
    have h := H.s.mul (H.hash m d) hs
    by_cases h1 : V.sg.inSub (V.sg.mul (Bls.hashPt V m d) x) = true
    · rw [if_neg (by rw [H.s.inSub h]; exact not_not_intro h1), h1]
      exact .ok ⟨rfl, h⟩
    · rw [if_pos ((H.s.inSub h).2 h1), Bool.eq_false_iff.2 h1]
      exact .err

theorem splitXY_ref {ps : List (Bls.Partial SA)} {qs : List (Bls.Partial CS)}
    (h : List.Forall₂ (fun a c => a.identifier = c.identifier ∧ RS a.signature c.signature) ps qs) (dup : List UInt8) :
    RelRes (List.Forall₂ (fun (a : L4 × SA) (c : K × CS) => Native.Rep Fq.q a.1 c.1 ∧ RS a.2 c.2)) (splitXY W ps dup) (Bls.splitXY V qs dup) := by
  induction h generalizing dup with
  | nil => exact .ok .nil
  | @cons a c l m h _ ih =>
    obtain ⟨h1, h2⟩ := h
    unfold splitXY Bls.splitXY
    rw [h1]
    split
    · exact .err
    · by_cases hs : V.sg.inSub c.signature = true
      · rw [if_neg (by rw [H.s.inSub h2]; exact not_not_intro hs), hs]
        refine (ih _).bind fun x y hxy => .ok (.cons ⟨?_, h2⟩ hxy)
        have e := C50_setUint64 Fq.lawful c.identifier.toUInt64
        have e' : Field.setUint64 Fq.impl.A c.identifier.toUInt64 = Field.setUint64 Fq.arithFix c.identifier.toUInt64 := by
          unfold Field.setUint64
          rw [Fq.e_toMont, Fq.e_A']
        rw [e']
        rw [UInt8.toNat_toUInt64] at e
        exact e
      · rw [if_pos ((H.s.inSub h2).2 hs), Bool.eq_false_iff.2 hs]
        exact .err

theorem combineSigs_ref {ps : List (Bls.Partial SA)} {qs : List (Bls.Partial CS)}
    (h : List.Forall₂ (fun a c => a.identifier = c.identifier ∧ RS a.signature c.signature) ps qs) :
    RelRes RS (combineSigs W ps) (Bls.combineSigs V qs) := by
  unfold combineSigs Bls.combineSigs
  rw [h.length_eq]
  split
  · exact .err
  split
  · exact .err
  refine (splitXY_ref H h []).bind fun xy xy' hxy => ?_
  have hm : List.Forall₂ (Native.Rep Fq.q) (xy.map Prod.fst) (xy'.map Prod.fst) := by
    clear h
    induction hxy with
    | nil => exact .nil
    | cons h _ ih => exact .cons h.1 ih
  have hz : ∀ n, List.Forall₂ (fun (a : (L4 × SA) × Nat) (c : (K × CS) × Nat) => (Native.Rep Fq.q a.1.1 c.1.1 ∧ RS a.1.2 c.1.2) ∧ a.2 = c.2)
      (xy.zipIdx n) (xy'.zipIdx n) := by
    clear h hm
    induction hxy with
    | nil => intro n; exact .nil
    | cons h _ ih =>
      intro n
      rw [List.zipIdx_cons, List.zipIdx_cons]
      exact .cons ⟨h, rfl⟩ (ih _)
  have hf : RelRes RS (xy.zipIdx.foldlM (fun sig p => do
      let b ← basisAt (xy.map Prod.fst) p.2 p.1.1
      Res.ok (W.s.add sig (W.s.mul p.1.2 b))) W.s.zero) (xy'.zipIdx.foldlM (fun sig p => do
      let b ← Bls.basisAt (xy'.map Prod.fst) p.2 p.1.1
      Res.ok (V.sg.add sig (V.sg.mul p.1.2 b))) (V.sg.ι 0)) := by
    refine RelRes.foldlM ?_ (hz 0) H.s.zero
    rintro a c ⟨⟨x, s⟩, n⟩ ⟨⟨y, t⟩, n'⟩ hac ⟨⟨hx, hs⟩, hn⟩
    dsimp only at hx hs hn ⊢
    subst hn
    refine (basisAt_ref hm n hx).bind fun b e hb => .ok (H.s.add hac (H.s.mul hs hb))
  refine hf.bind fun sg q hq => ?_
  by_cases h1 : V.sg.inSub q = true
  · rw [if_neg (by rw [H.s.inSub hq]; exact not_not_intro h1), h1]
    exact .ok hq
  · rw [if_pos ((H.s.inSub hq).2 h1), Bool.eq_false_iff.2 h1]
    exact .err

end

end Verif.Bls381.Sig
