import Verif.Bulletproof.BatchProps

/-! C75: the binary encoding of inner product proofs and range proofs. -/

set_option linter.unusedSectionVars false

namespace Verif.Bulletproof

open Verif Verif.Bytes
open Verif.OT (Ev Transcript idx)

variable {F G : Type} [Field F] [DecidableEq F] [AddCommGroup G] [Module F G] [DecidableEq G]

/-- Scalars have a fixed-length, points a fixed-length non-empty encoding, and both decode to what was encoded. -/
structure FullCodec (C : Curve F G) (L P : Nat) : Prop extends ScalarCodec C L where
  plen : ∀ p, (C.cmp p).length = P
  ppos : 0 < P
  prt : ∀ p, C.dec (C.cmp p) = some p

/-- Decoding accepts no other encoding. -/
structure Canonical (C : Curve F G) (L P : Nat) : Prop where
  scalar : ∀ b x, b.length = L → C.setBytes b = some x → C.bytes x = b
  point : ∀ b p, b.length = P → C.dec b = some p → C.cmp p = b

/-- The encoding: two scalars, then the pairs of cross terms in order. -/
def encIpp (C : Curve F G) (p : Ipp F G) : List UInt8 :=
  C.bytes p.a ++ C.bytes p.b ++ (List.zipWith (fun l r => C.cmp l ++ C.cmp r) p.capLs p.capRs).flatten

def encRange (C : Curve F G) (p : RProof F G) : List UInt8 :=
  C.cmp p.capA ++ C.cmp p.capS ++ C.cmp p.capT1 ++ C.cmp p.capT2 ++
    C.bytes p.taux ++ C.bytes p.mu ++ C.bytes p.tHat ++ encIpp C p.ipp

theorem idx_ok {α : Type} {l : List α} {i : Nat} (h : i < l.length) : idx l i = .ok l[i] := by
  unfold idx; simp [h]

theorem idx_panic {α : Type} {l : List α} {i : Nat} (h : l.length ≤ i) : idx l i = .panic := by
  unfold idx; simp [h]

theorem marshalIpp_ok (C : Curve F G) (p : Ipp F G) (h : p.capLs.length ≤ p.capRs.length) :
    marshalIpp C p = .ok (encIpp C p) := by
  unfold marshalIpp encIpp
  have : (List.range p.capLs.length).mapM (fun i => do
      let l ← idx p.capLs i
      let r ← idx p.capRs i
      Res.ok (C.cmp l ++ C.cmp r)) =
      .ok (List.zipWith (fun l r => C.cmp l ++ C.cmp r) p.capLs p.capRs) := by
    have e : List.zipWith (fun l r => C.cmp l ++ C.cmp r) p.capLs p.capRs =
        (List.range p.capLs.length).map fun i =>
          C.cmp (p.capLs.getD i 0) ++ C.cmp (p.capRs.getD i 0) := by
      apply List.ext_getElem
      · simp; omega
      · intro i h1 h2
        simp at h1 h2
        simp [h1.1, h1.2]
    rw [e]
    apply mapM_ok_of
    intro i hi
    have hi : i < p.capLs.length := List.mem_range.1 hi
    rw [idx_ok hi, Res.bind_ok, idx_ok (by omega : i < p.capRs.length), Res.bind_ok]
    have : i < p.capRs.length := by omega
    simp [hi, this]
  rw [this, Res.bind_ok]

theorem cut_mid {a b c : List UInt8} {n m : Nat} (ha : a.length = n) (hb : b.length = m) :
    cut (a ++ (b ++ c)) n m = .ok b := by
  unfold cut
  rw [if_pos (by simp; omega)]
  simp [← ha, ← hb]

theorem cut_panic {d : List UInt8} {n m : Nat} (h : d.length < n + m) : cut d n m = .panic := by
  unfold cut; rw [if_neg (by omega)]

theorem unmarshalPts_rt {C : Curve F G} {L P : Nat} (hc : FullCodec C L P) (ls rs : List G)
    (h : ls.length = rs.length) : ∀ (pre : List UInt8) (fuel : Nat) (aL aR : List G), ls.length < fuel →
    unmarshalPts C P (pre ++ (List.zipWith (fun l r => C.cmp l ++ C.cmp r) ls rs).flatten) fuel pre.length aL aR =
      .ok (aL ++ ls, aR ++ rs) := by
  induction ls generalizing rs with
  | nil =>
    intro pre fuel aL aR hf
    have : rs = [] := by simpa using h.symm
    subst this
    cases fuel with
    | zero => simp at hf
    | succ f => simp [unmarshalPts]
  | cons l ls ih => cases rs with
    | nil => simp at h
    | cons r rs =>
      intro pre fuel aL aR hf
      cases fuel with
      | zero => simp at hf
      | succ f =>
        have hl := hc.plen l
        have hr := hc.plen r
        have hp := hc.ppos
        rw [List.zipWith_cons_cons, List.flatten_cons]
        set rest := (List.zipWith (fun l r => C.cmp l ++ C.cmp r) ls rs).flatten with hrest
        unfold unmarshalPts
        rw [if_pos (by simp; omega), List.append_assoc (C.cmp l), cut_mid rfl hl, Res.bind_ok, hc.prt]
        have e2 : pre ++ (C.cmp l ++ (C.cmp r ++ rest)) = (pre ++ C.cmp l) ++ (C.cmp r ++ rest) := by simp
        rw [show (Res.ofOption (some l)) = Res.ok l from rfl, Res.bind_ok, e2,
          cut_mid (by simp [hl]) hr, Res.bind_ok, hc.prt, show (Res.ofOption (some r)) = Res.ok r from rfl,
          Res.bind_ok]
        have e3 : pre ++ C.cmp l ++ (C.cmp r ++ rest) = (pre ++ C.cmp l ++ C.cmp r) ++ rest := by simp
        have e4 : pre.length + P + P = (pre ++ C.cmp l ++ C.cmp r).length := by simp [hl, hr]; omega
        rw [e3, e4, ih rs (by simpa using h) _ _ _ _ (by simpa using hf)]
        simp

theorem zip_flatten_length {C : Curve F G} {L P : Nat} (hc : FullCodec C L P) (ls rs : List G)
    (h : ls.length ≤ rs.length) :
    (List.zipWith (fun l r => C.cmp l ++ C.cmp r) ls rs).flatten.length = 2 * P * ls.length := by
  rw [flatten_length (n := 2 * P) (by
    intro x hx
    obtain ⟨i, hi, rfl⟩ := List.mem_iff_getElem.1 hx
    simp [hc.plen]; omega), List.length_zipWith, Nat.min_eq_left h]

theorem unmarshalIpp_enc {C : Curve F G} {L P : Nat} (hc : FullCodec C L P) (gen : G) (p : Ipp F G)
    (h : p.capLs.length = p.capRs.length) : unmarshalIpp C gen (encIpp C p) = .ok p := by
  have hlen : (encIpp C p).length = L + L + 2 * P * p.capLs.length := by
    unfold encIpp
    rw [List.length_append, List.length_append, hc.len, hc.len, zip_flatten_length hc _ _ h.le]
  unfold unmarshalIpp
  simp only [hc.len, hc.plen]
  have e : encIpp C p = [] ++ (C.bytes p.a ++ (C.bytes p.b ++
      (List.zipWith (fun l r => C.cmp l ++ C.cmp r) p.capLs p.capRs).flatten)) := by simp [encIpp]
  have e2 : encIpp C p = C.bytes p.a ++ (C.bytes p.b ++
      (List.zipWith (fun l r => C.cmp l ++ C.cmp r) p.capLs p.capRs).flatten) := by simp [encIpp]
  have c1 : cut (encIpp C p) 0 L = .ok (C.bytes p.a) := by rw [e]; exact cut_mid rfl (hc.len _)
  have c2 : cut (encIpp C p) L L = .ok (C.bytes p.b) := by rw [e2]; exact cut_mid (hc.len _) (hc.len _)
  have c3 : unmarshalPts C P (encIpp C p) (encIpp C p).length (L + L) [] [] = .ok (p.capLs, p.capRs) := by
    have hL0 : 0 < L + L ∨ L + L = 0 := by omega
    have := unmarshalPts_rt hc p.capLs p.capRs h (C.bytes p.a ++ C.bytes p.b)
    have el : (C.bytes p.a ++ C.bytes p.b).length = L + L := by simp [hc.len]
    rw [el] at this
    by_cases hf : p.capLs.length < (encIpp C p).length
    · exact this _ [] [] hf
    · -- an empty encoding has no cross terms
      have hp := hc.ppos
      have h0 : p.capLs.length = 0 := by
        by_contra hne
        have : p.capLs.length ≤ 2 * P * p.capLs.length := Nat.le_mul_of_pos_left _ (by omega)
        have h3 : 2 * P * p.capLs.length = P * p.capLs.length + P * p.capLs.length := by ring
        have h4 : p.capLs.length ≤ P * p.capLs.length := Nat.le_mul_of_pos_left _ hp
        omega
      have hz : (encIpp C p).length = 0 := by omega
      rw [hz]
      have n1 : p.capLs = [] := List.length_eq_zero_iff.1 h0
      have n2 : p.capRs = [] := List.length_eq_zero_iff.1 (by omega)
      rw [n1, n2]; rfl
  rw [c1, Res.bind_ok, hc.rt, show (Res.ofOption (some p.a)) = Res.ok p.a from rfl, Res.bind_ok, c2, Res.bind_ok,
    hc.rt, show (Res.ofOption (some p.b)) = Res.ok p.b from rfl, Res.bind_ok, c3, Res.bind_ok]

/-- **C75 (inner product proofs).** A proof with as many right as left cross terms survives
`MarshalBinary`/`UnmarshalBinary`; with fewer right terms marshalling panics. -/
theorem C75_ipp_roundtrip {C : Curve F G} {L P : Nat} (hc : FullCodec C L P) (gen : G) (p : Ipp F G) :
    (p.capLs.length = p.capRs.length → marshalIpp C p = .ok (encIpp C p) ∧
      (encIpp C p).length = 2 * L + 2 * P * p.capLs.length ∧ unmarshalIpp C gen (encIpp C p) = .ok p) ∧
    (p.capRs.length < p.capLs.length → marshalIpp C p = .panic) := by
  constructor
  · intro h
    refine ⟨marshalIpp_ok C p h.le, ?_, unmarshalIpp_enc hc gen p h⟩
    unfold encIpp
    rw [List.length_append, List.length_append, hc.len, hc.len, zip_flatten_length hc _ _ h.le]
    ring
  · intro h
    unfold marshalIpp
    obtain ⟨d, hd⟩ : ∃ d, p.capLs.length = p.capRs.length + (1 + d) := ⟨p.capLs.length - p.capRs.length - 1, by omega⟩
    have hpanic : ∀ (f : Nat → Res (List UInt8)) (m : Nat), (∀ i < m, ∃ y, f i = .ok y) → f m = .panic →
        ∀ d, (List.range (m + (1 + d))).mapM f = .panic := by
      intro f m hok hm d
      have e : List.range (m + (1 + d)) = List.range m ++ (m :: (List.range d).map (fun i => m + 1 + i)) := by
        rw [List.range_add, Nat.add_comm 1 d, List.range_succ_eq_map]
        simp [Function.comp_def, Nat.add_assoc, Nat.add_comm 1]
      rw [e, List.mapM_append]
      have : ∃ ys, (List.range m).mapM f = .ok ys := by
        have : ∀ l : List Nat, (∀ i ∈ l, ∃ y, f i = .ok y) → ∃ ys, l.mapM f = .ok ys := by
          intro l
          induction l with
          | nil => intro _; exact ⟨[], rfl⟩
          | cons a l ih =>
            intro hl
            obtain ⟨y, hy⟩ := hl a (by simp)
            obtain ⟨ys, hys⟩ := ih fun i hi => hl i (by simp [hi])
            exact ⟨y :: ys, by rw [List.mapM_cons, hy, Res.bind_ok, hys, Res.bind_ok]; rfl⟩
        exact this _ fun i hi => hok i (List.mem_range.1 hi)
      obtain ⟨ys, hys⟩ := this
      rw [hys, Res.bind_ok, List.mapM_cons, hm]; rfl
    rw [hd, hpanic _ p.capRs.length (by
      intro i hi
      rw [idx_ok (by omega : i < p.capLs.length), Res.bind_ok, idx_ok hi, Res.bind_ok]
      exact ⟨_, rfl⟩) (by
      rw [idx_ok (by omega : p.capRs.length < p.capLs.length), Res.bind_ok, idx_panic (le_refl _)]; rfl)]
    rfl

/-- **C75 (range proofs).** The same for range proofs. -/
theorem C75_range_roundtrip {C : Curve F G} {L P : Nat} (hc : FullCodec C L P) (gen : G) (p : RProof F G)
    (h : p.ipp.capLs.length = p.ipp.capRs.length) :
    marshalRange C p = .ok (encRange C p) ∧
      (encRange C p).length = 4 * P + 5 * L + 2 * P * p.ipp.capLs.length ∧
      unmarshalRange C gen (encRange C p) = .ok p := by
  have lipp := ((C75_ipp_roundtrip hc gen p.ipp).1 h).2.1
  refine ⟨?_, ?_, ?_⟩
  · unfold marshalRange encRange
    rw [marshalIpp_ok C p.ipp h.le, Res.bind_ok]
  · unfold encRange
    simp only [List.length_append, hc.len, hc.plen, lipp]
    ring
  · unfold unmarshalRange
    simp only [hc.len, hc.plen]
    set d := encRange C p with hd
    have c1 : cut d 0 P = .ok (C.cmp p.capA) := by
      have : d = [] ++ (C.cmp p.capA ++ (C.cmp p.capS ++ C.cmp p.capT1 ++ C.cmp p.capT2 ++
        C.bytes p.taux ++ C.bytes p.mu ++ C.bytes p.tHat ++ encIpp C p.ipp)) := by simp [hd, encRange]
      rw [this]; exact cut_mid rfl (hc.plen _)
    have c2 : cut d P P = .ok (C.cmp p.capS) := by
      have : d = C.cmp p.capA ++ (C.cmp p.capS ++ (C.cmp p.capT1 ++ C.cmp p.capT2 ++
        C.bytes p.taux ++ C.bytes p.mu ++ C.bytes p.tHat ++ encIpp C p.ipp)) := by simp [hd, encRange]
      rw [this]; exact cut_mid (hc.plen _) (hc.plen _)
    have c3 : cut d (P + P) P = .ok (C.cmp p.capT1) := by
      have : d = (C.cmp p.capA ++ C.cmp p.capS) ++ (C.cmp p.capT1 ++ (C.cmp p.capT2 ++
        C.bytes p.taux ++ C.bytes p.mu ++ C.bytes p.tHat ++ encIpp C p.ipp)) := by simp [hd, encRange]
      rw [this]; exact cut_mid (by simp [hc.plen]) (hc.plen _)
    have c4 : cut d (P + P + P) P = .ok (C.cmp p.capT2) := by
      have : d = (C.cmp p.capA ++ C.cmp p.capS ++ C.cmp p.capT1) ++ (C.cmp p.capT2 ++ (
        C.bytes p.taux ++ C.bytes p.mu ++ C.bytes p.tHat ++ encIpp C p.ipp)) := by simp [hd, encRange]
      rw [this]; exact cut_mid (by simp [hc.plen]; omega) (hc.plen _)
    have c5 : cut d (P + P + P + P) L = .ok (C.bytes p.taux) := by
      have : d = (C.cmp p.capA ++ C.cmp p.capS ++ C.cmp p.capT1 ++ C.cmp p.capT2) ++ (
        C.bytes p.taux ++ (C.bytes p.mu ++ C.bytes p.tHat ++ encIpp C p.ipp)) := by simp [hd, encRange]
      rw [this]; exact cut_mid (by simp [hc.plen]; omega) (hc.len _)
    have c6 : cut d (P + P + P + P + L) L = .ok (C.bytes p.mu) := by
      have : d = (C.cmp p.capA ++ C.cmp p.capS ++ C.cmp p.capT1 ++ C.cmp p.capT2 ++
        C.bytes p.taux) ++ (C.bytes p.mu ++ (C.bytes p.tHat ++ encIpp C p.ipp)) := by simp [hd, encRange]
      rw [this]; exact cut_mid (by simp [hc.plen, hc.len]; omega) (hc.len _)
    have c7 : cut d (P + P + P + P + L + L) L = .ok (C.bytes p.tHat) := by
      have : d = (C.cmp p.capA ++ C.cmp p.capS ++ C.cmp p.capT1 ++ C.cmp p.capT2 ++
        C.bytes p.taux ++ C.bytes p.mu) ++ (C.bytes p.tHat ++ encIpp C p.ipp) := by simp [hd, encRange]
      rw [this]; exact cut_mid (by simp [hc.plen, hc.len]; omega) (hc.len _)
    have c8 : d.drop (P + P + P + P + L + L + L) = encIpp C p.ipp := by
      have : d = (C.cmp p.capA ++ C.cmp p.capS ++ C.cmp p.capT1 ++ C.cmp p.capT2 ++
        C.bytes p.taux ++ C.bytes p.mu ++ C.bytes p.tHat) ++ encIpp C p.ipp := by simp [hd, encRange]
      rw [this]
      apply List.drop_left'
      simp [hc.plen, hc.len]; omega
    have os : ∀ {α : Type} (x : α), Res.ofOption (some x) = Res.ok x := fun _ => rfl
    rw [c1, Res.bind_ok, hc.prt, os, Res.bind_ok, c2, Res.bind_ok, hc.prt, os, Res.bind_ok, c3, Res.bind_ok, hc.prt, os,
      Res.bind_ok, c4, Res.bind_ok, hc.prt, os, Res.bind_ok, c5, Res.bind_ok, hc.rt, os, Res.bind_ok, c6, Res.bind_ok,
      hc.rt, os, Res.bind_ok, c7, Res.bind_ok, hc.rt, os, Res.bind_ok, c8, unmarshalIpp_enc hc gen p.ipp h, Res.bind_ok]

theorem ofOption_ok {α : Type} {o : Option α} {x : α} (h : Res.ofOption o = .ok x) : o = some x := by
  cases o with
  | none => exact nomatch h
  | some y => exact congrArg some (Res.ok.inj h)

theorem cut_spec {d b : List UInt8} {n m : Nat} (h : cut d n m = .ok b) :
    n + m ≤ d.length ∧ b = (d.drop n).take m ∧ b.length = m ∧ d.drop n = b ++ d.drop (n + m) := by
  unfold cut at h
  split_ifs at h with hle
  have hb := (Res.ok.inj h).symm
  refine ⟨hle, hb, by rw [hb]; simp; omega, ?_⟩
  rw [hb, ← List.drop_drop, List.take_append_drop]

theorem unmarshalPts_canon {C : Curve F G} {L P : Nat} (hc : Canonical C L P) (data : List UInt8) (hP : 0 < P) :
    ∀ (fuel ptr : Nat) (aL aR Ls Rs : List G),
    data.length ≤ fuel + ptr → ptr ≤ data.length →
    unmarshalPts C P data fuel ptr aL aR = .ok (Ls, Rs) →
    ∃ ls rs, Ls = aL ++ ls ∧ Rs = aR ++ rs ∧ ls.length = rs.length ∧
      data.drop ptr = (List.zipWith (fun l r => C.cmp l ++ C.cmp r) ls rs).flatten := by
  intro fuel
  induction fuel with
  | zero =>
    intro ptr aL aR Ls Rs h1 h2 h
    obtain ⟨e1, e2⟩ := Prod.mk.inj (Res.ok.inj h)
    refine ⟨[], [], by simp [e1], by simp [e2], rfl, ?_⟩
    have : ptr = data.length := by omega
    simp [this]
  | succ fuel ih =>
    intro ptr aL aR Ls Rs h1 h2 h
    unfold unmarshalPts at h
    split_ifs at h with hlt
    · obtain ⟨lb, hlb, h⟩ := Res.bind_eq_ok.1 h
      obtain ⟨l, hl, h⟩ := Res.bind_eq_ok.1 h
      obtain ⟨rb, hrb, h⟩ := Res.bind_eq_ok.1 h
      obtain ⟨r, hr, h⟩ := Res.bind_eq_ok.1 h
      obtain ⟨a1, _, a3, a4⟩ := cut_spec hlb
      obtain ⟨b1, _, b3, b4⟩ := cut_spec hrb
      obtain ⟨ls, rs, k1, k2, k3, k4⟩ := ih _ _ _ _ _ (by omega) (by omega) h
      refine ⟨l :: ls, r :: rs, by simp [k1], by simp [k2], by simp [k3], ?_⟩
      rw [a4, b4, k4, List.zipWith_cons_cons, List.flatten_cons, hc.point _ _ a3 (ofOption_ok hl),
        hc.point _ _ b3 (ofOption_ok hr), List.append_assoc]
    · obtain ⟨e1, e2⟩ := Prod.mk.inj (Res.ok.inj h)
      refine ⟨[], [], by simp [e1], by simp [e2], rfl, ?_⟩
      have : ptr = data.length := by omega
      simp [this]

theorem unmarshalIpp_canon {C : Curve F G} {L P : Nat} (hf : FullCodec C L P) (hc : Canonical C L P) (gen : G)
    (data : List UInt8) (p : Ipp F G) (h : unmarshalIpp C gen data = .ok p) :
    p.capLs.length = p.capRs.length ∧ encIpp C p = data := by
  unfold unmarshalIpp at h
  simp only [hf.len, hf.plen] at h
  obtain ⟨ab, hab, h⟩ := Res.bind_eq_ok.1 h
  obtain ⟨a, ha, h⟩ := Res.bind_eq_ok.1 h
  obtain ⟨bb, hbb, h⟩ := Res.bind_eq_ok.1 h
  obtain ⟨b, hb, h⟩ := Res.bind_eq_ok.1 h
  obtain ⟨⟨Ls, Rs⟩, hpts, h⟩ := Res.bind_eq_ok.1 h
  have hp := (Res.ok.inj h).symm
  subst hp
  obtain ⟨a1, _, a3, a4⟩ := cut_spec hab
  obtain ⟨b1, _, b3, b4⟩ := cut_spec hbb
  obtain ⟨ls, rs, k1, k2, k3, k4⟩ := unmarshalPts_canon hc data hf.ppos _ _ _ _ _ _ (by omega) (by omega) hpts
  simp only [List.nil_append] at k1 k2
  subst k1 k2
  refine ⟨k3, ?_⟩
  rw [List.drop_zero, Nat.zero_add] at a4
  rw [b4, k4] at a4
  rw [a4]
  simp only [encIpp]
  rw [hc.scalar _ _ a3 (ofOption_ok ha), hc.scalar _ _ b3 (ofOption_ok hb), List.append_assoc]

/-- **C75 (unique encodings).** Where scalars and points have one encoding each, `UnmarshalBinary` accepts
nothing but the output of `MarshalBinary` on the proof it returns: no trailing or missing bytes, no second
encoding of the same proof. -/
theorem C75_canonical {C : Curve F G} {L P : Nat} (hf : FullCodec C L P) (hc : Canonical C L P) (gen : G)
    (data : List UInt8) :
    (∀ p, unmarshalIpp C gen data = .ok p → marshalIpp C p = .ok data) ∧
    (∀ p, unmarshalRange C gen data = .ok p → marshalRange C p = .ok data) := by
  constructor
  · intro p h
    obtain ⟨h1, h2⟩ := unmarshalIpp_canon hf hc gen data p h
    rw [marshalIpp_ok C p h1.le, h2]
  · intro p h
    unfold unmarshalRange at h
    simp only [hf.len, hf.plen] at h
    obtain ⟨x1, c1, h⟩ := Res.bind_eq_ok.1 h
    obtain ⟨y1, d1, h⟩ := Res.bind_eq_ok.1 h
    obtain ⟨x2, c2, h⟩ := Res.bind_eq_ok.1 h
    obtain ⟨y2, d2, h⟩ := Res.bind_eq_ok.1 h
    obtain ⟨x3, c3, h⟩ := Res.bind_eq_ok.1 h
    obtain ⟨y3, d3, h⟩ := Res.bind_eq_ok.1 h
    obtain ⟨x4, c4, h⟩ := Res.bind_eq_ok.1 h
    obtain ⟨y4, d4, h⟩ := Res.bind_eq_ok.1 h
    obtain ⟨x5, c5, h⟩ := Res.bind_eq_ok.1 h
    obtain ⟨y5, d5, h⟩ := Res.bind_eq_ok.1 h
    obtain ⟨x6, c6, h⟩ := Res.bind_eq_ok.1 h
    obtain ⟨y6, d6, h⟩ := Res.bind_eq_ok.1 h
    obtain ⟨x7, c7, h⟩ := Res.bind_eq_ok.1 h
    obtain ⟨y7, d7, h⟩ := Res.bind_eq_ok.1 h
    obtain ⟨ipp, hipp, h⟩ := Res.bind_eq_ok.1 h
    have hp := (Res.ok.inj h).symm
    subst hp
    obtain ⟨i1, i2⟩ := unmarshalIpp_canon hf hc gen _ _ hipp
    unfold marshalRange
    rw [marshalIpp_ok C _ i1.le, Res.bind_ok, i2]
    obtain ⟨_, _, l1, e1⟩ := cut_spec c1
    obtain ⟨_, _, l2, e2⟩ := cut_spec c2
    obtain ⟨_, _, l3, e3⟩ := cut_spec c3
    obtain ⟨_, _, l4, e4⟩ := cut_spec c4
    obtain ⟨_, _, l5, e5⟩ := cut_spec c5
    obtain ⟨_, _, l6, e6⟩ := cut_spec c6
    obtain ⟨_, _, l7, e7⟩ := cut_spec c7
    rw [List.drop_zero, Nat.zero_add, e2, e3, e4, e5, e6, e7] at e1
    congr 1
    simp only
    rw [hc.point _ _ l1 (ofOption_ok d1), hc.point _ _ l2 (ofOption_ok d2), hc.point _ _ l3 (ofOption_ok d3),
      hc.point _ _ l4 (ofOption_ok d4), hc.scalar _ _ l5 (ofOption_ok d5), hc.scalar _ _ l6 (ofOption_ok d6),
      hc.scalar _ _ l7 (ofOption_ok d7)]
    conv_rhs => rw [e1]
    simp only [List.append_assoc]

/-- **C75 (truncation).** Input shorter than the fixed part is a crash or an error, never a proof; the empty
input is a crash. -/
theorem C75_truncated {C : Curve F G} {L P : Nat} (hf : FullCodec C L P) (gen : G) (data : List UInt8) :
    (data.length < 2 * L → ∀ p, unmarshalIpp C gen data ≠ .ok p) ∧
    (data.length < L → unmarshalIpp C gen data = .panic) ∧
    (data.length < 4 * P + 5 * L → ∀ p, unmarshalRange C gen data ≠ .ok p) ∧
    (data.length < P → unmarshalRange C gen data = .panic) := by
  have hi : data.length < 2 * L → ∀ p, unmarshalIpp C gen data ≠ .ok p := by
    intro hlt p h
    unfold unmarshalIpp at h
    simp only [hf.len, hf.plen] at h
    obtain ⟨ab, hab, h⟩ := Res.bind_eq_ok.1 h
    obtain ⟨a, ha, h⟩ := Res.bind_eq_ok.1 h
    obtain ⟨bb, hbb, h⟩ := Res.bind_eq_ok.1 h
    have := (cut_spec hbb).1
    omega
  refine ⟨hi, fun hlt => ?_, fun hlt p h => ?_, fun hlt => ?_⟩
  · unfold unmarshalIpp
    simp only [hf.len, hf.plen]
    rw [cut_panic (by omega)]; rfl
  · unfold unmarshalRange at h
    simp only [hf.len, hf.plen] at h
    obtain ⟨x1, c1, h⟩ := Res.bind_eq_ok.1 h
    obtain ⟨y1, d1, h⟩ := Res.bind_eq_ok.1 h
    obtain ⟨x2, c2, h⟩ := Res.bind_eq_ok.1 h
    obtain ⟨y2, d2, h⟩ := Res.bind_eq_ok.1 h
    obtain ⟨x3, c3, h⟩ := Res.bind_eq_ok.1 h
    obtain ⟨y3, d3, h⟩ := Res.bind_eq_ok.1 h
    obtain ⟨x4, c4, h⟩ := Res.bind_eq_ok.1 h
    obtain ⟨y4, d4, h⟩ := Res.bind_eq_ok.1 h
    obtain ⟨x5, c5, h⟩ := Res.bind_eq_ok.1 h
    obtain ⟨y5, d5, h⟩ := Res.bind_eq_ok.1 h
    obtain ⟨x6, c6, h⟩ := Res.bind_eq_ok.1 h
    obtain ⟨y6, d6, h⟩ := Res.bind_eq_ok.1 h
    obtain ⟨x7, c7, h⟩ := Res.bind_eq_ok.1 h
    obtain ⟨y7, d7, h⟩ := Res.bind_eq_ok.1 h
    obtain ⟨ipp, hipp, h⟩ := Res.bind_eq_ok.1 h
    have h7 := (cut_spec c7).1
    -- the inner proof needs two more scalars
    unfold unmarshalIpp at hipp
    simp only [hf.len, hf.plen] at hipp
    obtain ⟨ab, hab, hipp⟩ := Res.bind_eq_ok.1 hipp
    obtain ⟨a, ha, hipp⟩ := Res.bind_eq_ok.1 hipp
    obtain ⟨bb, hbb, hipp⟩ := Res.bind_eq_ok.1 hipp
    have := (cut_spec hbb).1
    rw [List.length_drop] at this
    omega
  · unfold unmarshalRange
    simp only [hf.len, hf.plen]
    rw [cut_panic (by omega)]; rfl

end Verif.Bulletproof
