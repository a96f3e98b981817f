import Verif.Bbs.Pok

/-! C81: encodings of BBS+ signatures, blind signature contexts, proofs and keys. -/

set_option linter.unusedSectionVars false

namespace Verif.Bbs

open Verif
open Verif.OT (Ev Transcript idx)

variable {F G1 G2 GT : Type} [Field F] [DecidableEq F] [AddCommGroup G1] [Module F G1] [DecidableEq G1]
  [AddCommGroup G2] [Module F G2] [DecidableEq G2] [CommGroup GT] [DecidableEq GT]

/-- The element encodings of BLS12-381: 48 byte `G1` points, 96 byte `G2` points, 32 byte scalars, each decoding
to what was encoded. -/
structure Enc (V : Env F G1 G2) : Prop where
  len1 : ∀ P, (V.cmp1 P).length = 48
  len2 : ∀ P, (V.cmp2 P).length = 96
  lenS : ∀ x, (V.bytes x).length = 32
  rt1 : ∀ P, V.dec1 (V.cmp1 P) = some P
  rt2 : ∀ P, V.dec2 (V.cmp2 P) = some P
  rtS : ∀ x, V.setBytes (V.bytes x) = some x

/-- Element decoding accepts no other encoding. -/
structure Canon (V : Env F G1 G2) : Prop where
  c1 : ∀ b P, V.dec1 b = some P → V.cmp1 P = b
  c2 : ∀ b P, V.dec2 b = some P → V.cmp2 P = b
  cS : ∀ b x, V.setBytes b = some x → V.bytes x = b

theorem ofOption_ok {α : Type} {o : Option α} {a : α} : Res.ofOption o = .ok a ↔ o = some a := by
  cases o with
  | none => exact ⟨nofun, nofun⟩
  | some b => simp [Res.ofOption]

theorem ofOption_ne_panic {α : Type} (o : Option α) : Res.ofOption o ≠ .panic := by
  cases o <;> exact nofun

theorem bind_ne_panic {α β : Type} {x : Res α} {f : α → Res β} (hx : x ≠ .panic) (hf : ∀ a, f a ≠ .panic) :
    (x >>= f) ≠ .panic := by
  cases x with
  | ok a => exact hf a
  | err => exact nofun
  | panic => exact absurd rfl hx

theorem mapM_ne_panic {α β : Type} {f : α → Res β} (hf : ∀ a, f a ≠ .panic) (l : List α) : l.mapM f ≠ .panic := by
  induction l with
  | nil => exact nofun
  | cons a l ih =>
    rw [List.mapM_cons]
    exact bind_ne_panic (hf a) fun _ => bind_ne_panic ih fun _ => nofun

theorem flatMap_len {V : Env F G1 G2} (hE : Enc V) (xs : List F) : (xs.flatMap V.bytes).length = 32 * xs.length := by
  induction xs with
  | nil => rfl
  | cons x xs ih =>
    rw [List.flatMap_cons, List.length_append, ih, hE.lenS, List.length_cons]
    omega

theorem scalars_rt {V : Env F G1 G2} (hE : Enc V) (data : List UInt8) (off : Nat) :
    ∀ (xs : List F) (s : Nat), data.drop (off + s * 32) = xs.flatMap V.bytes →
      (List.range' s xs.length).mapM (fun i => Res.ofOption (V.setBytes ((data.drop (off + i * 32)).take 32))) =
        .ok xs
  | [], _, _ => rfl
  | x :: xs, s, h => by
    rw [List.flatMap_cons] at h
    have h1 : (data.drop (off + s * 32)).take 32 = V.bytes x := by
      rw [h, List.take_append_of_le_length (by rw [hE.lenS]), List.take_of_length_le (by rw [hE.lenS])]
    have h2 : data.drop (off + (s + 1) * 32) = xs.flatMap V.bytes := by
      have : off + (s + 1) * 32 = off + s * 32 + 32 := by omega
      rw [this, ← List.drop_drop, h]
      have := hE.lenS x
      rw [← this, List.drop_left]
    rw [List.length_cons, List.range'_succ, List.mapM_cons, h1, hE.rtS, scalars_rt hE data off xs (s + 1) h2]
    rfl

theorem scalars_inv {V : Env F G1 G2} (hC : Canon V) (data : List UInt8) (off : Nat) :
    ∀ (k s : Nat) (xs : List F),
      (List.range' s k).mapM (fun i => Res.ofOption (V.setBytes ((data.drop (off + i * 32)).take 32))) = .ok xs →
      xs.length = k ∧ (data.drop (off + s * 32)).take (k * 32) = xs.flatMap V.bytes
  | 0, s, xs, h => by
    injection h with h
    subst h
    simp
  | k + 1, s, xs, h => by
    rw [List.range'_succ, List.mapM_cons, Res.bind_eq_ok] at h
    obtain ⟨x, hx, h⟩ := h
    rw [Res.bind_eq_ok] at h
    obtain ⟨ys, hy, h⟩ := h
    injection h with h
    subst h
    obtain ⟨h1, h2⟩ := scalars_inv hC data off k (s + 1) ys hy
    rw [ofOption_ok] at hx
    refine ⟨by simp [h1], ?_⟩
    rw [List.flatMap_cons, ← h2, hC.cS _ _ hx]
    have e : off + (s + 1) * 32 = off + s * 32 + 32 := by omega
    rw [e, show (k + 1) * 32 = 32 + k * 32 by omega, List.take_add, List.drop_drop]

/-- **C81** Signatures and blind signatures: 112 bytes, decoding inverts encoding, any other length is an
error, decoding never panics, and (when element decoding is canonical) whatever decodes is the encoding of the
result. -/
theorem C81_signature {V : Env F G1 G2} (hE : Enc V) (old s : Signature F G1) :
    (s.marshal V).length = 112 ∧ Signature.unmarshal V old (s.marshal V) = .ok s ∧
    (∀ data, data.length ≠ 112 → Signature.unmarshal V old data = .err) ∧
    (∀ data, Signature.unmarshal V old data ≠ .panic) ∧
    (Canon V → ∀ data s', Signature.unmarshal V old data = .ok s' → s'.marshal V = data) := by
  have hl : (s.marshal V).length = 112 := by
    unfold Signature.marshal
    rw [List.length_append, List.length_append, hE.len1, hE.lenS, hE.lenS]
  refine ⟨hl, ?_, ?_, ?_, ?_⟩
  · unfold Signature.unmarshal
    simp only [hE.len1, hE.lenS]
    rw [if_neg (by omega)]
    unfold Signature.marshal
    have a1 : (V.cmp1 s.a ++ V.bytes s.e ++ V.bytes s.s).take 48 = V.cmp1 s.a := by
      rw [List.append_assoc, ← hE.len1 s.a, List.take_left]
    have a2 : ((V.cmp1 s.a ++ V.bytes s.e ++ V.bytes s.s).drop 48).take 32 = V.bytes s.e := by
      rw [List.append_assoc]
      conv_lhs => rw [← hE.len1 s.a]
      rw [List.drop_left, ← hE.lenS s.e, List.take_left]
    have a3 : (V.cmp1 s.a ++ V.bytes s.e ++ V.bytes s.s).drop (48 + 32) = V.bytes s.s := by
      have : (V.cmp1 s.a ++ V.bytes s.e).length = 48 + 32 := by rw [List.length_append, hE.len1, hE.lenS]
      rw [← this, List.drop_left]
    rw [a1, a2, a3, hE.rt1, hE.rtS, hE.rtS]
    rfl
  · intro data hd
    unfold Signature.unmarshal
    simp only [hE.len1, hE.lenS]
    rw [if_pos (by omega)]
  · intro data
    unfold Signature.unmarshal
    simp only [hE.len1, hE.lenS]
    split
    · exact nofun
    · exact bind_ne_panic (ofOption_ne_panic _) fun _ => bind_ne_panic (ofOption_ne_panic _) fun _ =>
        bind_ne_panic (ofOption_ne_panic _) fun _ => nofun
  · intro hC data s' h
    unfold Signature.unmarshal at h
    simp only [hE.len1, hE.lenS] at h
    split at h
    · exact nomatch h
    rw [Res.bind_eq_ok] at h
    obtain ⟨a, ha, h⟩ := h
    rw [Res.bind_eq_ok] at h
    obtain ⟨e, he, h⟩ := h
    rw [Res.bind_eq_ok] at h
    obtain ⟨x, hx, h⟩ := h
    injection h with h
    subst h
    rw [ofOption_ok] at ha he hx
    unfold Signature.marshal
    simp only []
    rw [hC.c1 _ _ ha, hC.cS _ _ he, hC.cS _ _ hx, List.append_assoc, ← List.drop_drop, List.take_append_drop,
      List.take_append_drop]

theorem take_drop_drop (l : List UInt8) (i j : Nat) : (l.drop i).take j ++ l.drop (i + j) = l.drop i := by
  rw [← List.drop_drop, List.take_append_drop]

/-- **C81** Blind signature contexts with at least one proof: `80 + 32·k` bytes, decoding inverts encoding;
inputs shorter than 112 bytes (so every context without proofs) or of a length that is not 48 modulo 32 are
errors; decoding never panics and is canonical when element decoding is. -/
theorem C81_context {V : Env F G1 G2} (hE : Enc V) (old c : BlindCtx F G1) :
    (c.marshal V).length = 80 + 32 * c.proofs.length ∧
    (1 ≤ c.proofs.length → BlindCtx.unmarshal V old (c.marshal V) = .ok c) ∧
    (∀ data, data.length < 112 ∨ (data.length - 48) % 32 ≠ 0 → BlindCtx.unmarshal V old data = .err) ∧
    (∀ data, BlindCtx.unmarshal V old data ≠ .panic) ∧
    (Canon V → ∀ data c', BlindCtx.unmarshal V old data = .ok c' → c'.marshal V = data ∧ 1 ≤ c'.proofs.length) := by
  have hl : (c.marshal V).length = 80 + 32 * c.proofs.length := by
    unfold BlindCtx.marshal
    rw [List.length_append, List.length_append, hE.len1, hE.lenS, flatMap_len hE]
  refine ⟨hl, ?_, ?_, ?_, ?_⟩
  · intro hp
    unfold BlindCtx.unmarshal
    simp only [hE.len1, hE.lenS]
    rw [if_neg (by omega), if_neg (by omega)]
    have a1 : (c.marshal V).take 48 = V.cmp1 c.commitment := by
      unfold BlindCtx.marshal
      rw [List.append_assoc, ← hE.len1 c.commitment, List.take_left]
    have a2 : ((c.marshal V).drop 48).take 32 = V.bytes c.challenge := by
      unfold BlindCtx.marshal
      rw [List.append_assoc]
      conv_lhs => rw [← hE.len1 c.commitment]
      rw [List.drop_left, ← hE.lenS c.challenge, List.take_left]
    have a3 : (c.marshal V).drop (80 + 0 * 32) = c.proofs.flatMap V.bytes := by
      unfold BlindCtx.marshal
      have : (V.cmp1 c.commitment ++ V.bytes c.challenge).length = 80 + 0 * 32 := by
        rw [List.length_append, hE.len1, hE.lenS]
      rw [← this, List.drop_left]
    have a4 := scalars_rt hE _ 80 c.proofs 0 a3
    have hk : ((c.marshal V).length - 48) / 32 - 1 = c.proofs.length := by omega
    rw [a1, hE.rt1, a2, hE.rtS, hk, List.range_eq_range']
    have e : ∀ i, 48 + (i + 1) * 32 = 80 + i * 32 := fun i => by omega
    simp only [e]
    rw [show (Res.ofOption (some c.commitment)) = Res.ok c.commitment from rfl, Res.bind_ok,
      show (Res.ofOption (some c.challenge)) = Res.ok c.challenge from rfl, Res.bind_ok, a4, Res.bind_ok]
  · intro data hd
    unfold BlindCtx.unmarshal
    simp only [hE.len1, hE.lenS]
    split
    · rfl
    split
    · rfl
    omega
  · intro data
    unfold BlindCtx.unmarshal
    simp only [hE.len1, hE.lenS]
    split
    · exact nofun
    split
    · exact nofun
    · exact bind_ne_panic (ofOption_ne_panic _) fun _ => bind_ne_panic (ofOption_ne_panic _) fun _ =>
        bind_ne_panic (mapM_ne_panic (fun _ => ofOption_ne_panic _) _) fun _ => nofun
  · intro hC data c' h
    unfold BlindCtx.unmarshal at h
    simp only [hE.len1, hE.lenS] at h
    split at h
    · exact nomatch h
    split at h
    · exact nomatch h
    rw [Res.bind_eq_ok] at h
    obtain ⟨a, ha, h⟩ := h
    rw [Res.bind_eq_ok] at h
    obtain ⟨ch, hch, h⟩ := h
    rw [Res.bind_eq_ok] at h
    obtain ⟨ps, hps, h⟩ := h
    injection h with h
    subst h
    have e : ∀ i, 48 + (i + 1) * 32 = 80 + i * 32 := fun i => by omega
    simp only [e] at hps
    rw [List.range_eq_range'] at hps
    obtain ⟨h1, h2⟩ := scalars_inv hC data 80 _ 0 ps hps
    rw [ofOption_ok] at ha hch
    unfold BlindCtx.marshal
    refine ⟨?_, ?_⟩
    · rw [List.take_of_length_le (by rw [List.length_drop]; omega)] at h2
      have t1 := take_drop_drop data 48 32
      simp only []
      rw [← h2, hC.c1 _ _ ha, hC.cS _ _ hch, List.append_assoc]
      exact (congrArg (fun l => data.take 48 ++ l) t1).trans (List.take_append_drop _ _)
    · show 1 ≤ ps.length
      omega

/-- **C81** Proofs of knowledge with at least two responses in `proof2`: `208 + 32·k` bytes, decoding inverts
encoding; shorter inputs than 272 bytes and other residues of the length are errors; decoding never panics,
always yields at least two responses, and is canonical when element decoding is. -/
theorem C81_proof {V : Env F G1 G2} (hE : Enc V) (old p : PokProof F G1) :
    (p.marshal V).length = 208 + 32 * p.proof2.length ∧
    (2 ≤ p.proof2.length → PokProof.unmarshal V old (p.marshal V) = .ok p) ∧
    (∀ data, data.length < 272 ∨ (data.length - 144) % 32 ≠ 0 → PokProof.unmarshal V old data = .err) ∧
    (∀ data, PokProof.unmarshal V old data ≠ .panic) ∧
    (Canon V → ∀ data p', PokProof.unmarshal V old data = .ok p' → p'.marshal V = data ∧ 2 ≤ p'.proof2.length) := by
  have hl : (p.marshal V).length = 208 + 32 * p.proof2.length := by
    unfold PokProof.marshal
    simp only [List.length_append, hE.len1, hE.lenS, flatMap_len hE]
  refine ⟨hl, ?_, ?_, ?_, ?_⟩
  · intro hp
    unfold PokProof.unmarshal
    simp only [hE.len1, hE.lenS]
    rw [if_neg (by omega), if_neg (by omega)]
    have cut : ∀ (x y z : List UInt8) (n m : Nat), x.length = n → y.length = m →
        ((x ++ (y ++ z)).drop n).take m = y := by
      rintro x y z n m rfl rfl
      rw [List.drop_left, List.take_left]
    have a1 : (p.marshal V).take 48 = V.cmp1 p.aPrime := by
      unfold PokProof.marshal
      simp only [List.append_assoc]
      rw [← hE.len1 p.aPrime, List.take_left]
    have a2 : ((p.marshal V).drop 48).take 48 = V.cmp1 p.aBar := by
      unfold PokProof.marshal
      simp only [List.append_assoc]
      exact cut _ _ _ _ _ (hE.len1 _) (hE.len1 _)
    have a3 : ((p.marshal V).drop (48 + 48)).take 48 = V.cmp1 p.d := by
      have : p.marshal V = (V.cmp1 p.aPrime ++ V.cmp1 p.aBar) ++ (V.cmp1 p.d ++
          (V.bytes p.proof1.1 ++ V.bytes p.proof1.2 ++ p.proof2.flatMap V.bytes)) := by
        unfold PokProof.marshal
        simp only [List.append_assoc]
      rw [this]
      exact cut _ _ _ _ _ (by simp [hE.len1]) (hE.len1 _)
    have a4 : ((p.marshal V).drop (48 + 48 + 48)).take 32 = V.bytes p.proof1.1 := by
      have : p.marshal V = (V.cmp1 p.aPrime ++ V.cmp1 p.aBar ++ V.cmp1 p.d) ++
          (V.bytes p.proof1.1 ++ (V.bytes p.proof1.2 ++ p.proof2.flatMap V.bytes)) := by
        unfold PokProof.marshal
        simp only [List.append_assoc]
      rw [this]
      exact cut _ _ _ _ _ (by simp [hE.len1]) (hE.lenS _)
    have a5 : ((p.marshal V).drop (48 + 48 + 48 + 32)).take 32 = V.bytes p.proof1.2 := by
      have : p.marshal V = (V.cmp1 p.aPrime ++ V.cmp1 p.aBar ++ V.cmp1 p.d ++ V.bytes p.proof1.1) ++
          (V.bytes p.proof1.2 ++ p.proof2.flatMap V.bytes) := by
        unfold PokProof.marshal
        simp only [List.append_assoc]
      rw [this]
      exact cut _ _ _ _ _ (by simp [hE.len1, hE.lenS]) (hE.lenS _)
    have a6 : (p.marshal V).drop (48 + 48 + 48 + 32 + 32 + 0 * 32) = p.proof2.flatMap V.bytes := by
      unfold PokProof.marshal
      have : (V.cmp1 p.aPrime ++ V.cmp1 p.aBar ++ V.cmp1 p.d ++ (V.bytes p.proof1.1 ++ V.bytes p.proof1.2)).length =
          48 + 48 + 48 + 32 + 32 + 0 * 32 := by
        simp only [List.length_append, hE.len1, hE.lenS]
      rw [← this, List.drop_left]
    have a7 := scalars_rt hE _ _ p.proof2 0 a6
    have hk : ((p.marshal V).length - 48 * 3) / 32 - 2 = p.proof2.length := by omega
    rw [a1, a2, a3, a4, a5, hE.rt1, hE.rt1, hE.rt1, hE.rtS, hE.rtS, hk, List.range_eq_range']
    simp only [Res.ofOption, Res.bind_ok] at a7 ⊢
    erw [a7]
    rfl
  · intro data hd
    unfold PokProof.unmarshal
    simp only [hE.len1, hE.lenS]
    split
    · rfl
    split
    · rfl
    omega
  · intro data
    unfold PokProof.unmarshal
    simp only [hE.len1, hE.lenS]
    split
    · exact nofun
    split
    · exact nofun
    · exact bind_ne_panic (ofOption_ne_panic _) fun _ => bind_ne_panic (ofOption_ne_panic _) fun _ =>
        bind_ne_panic (ofOption_ne_panic _) fun _ => bind_ne_panic (ofOption_ne_panic _) fun _ =>
        bind_ne_panic (ofOption_ne_panic _) fun _ =>
        bind_ne_panic (mapM_ne_panic (fun _ => ofOption_ne_panic _) _) fun _ => nofun
  · intro hC data p' h
    unfold PokProof.unmarshal at h
    simp only [hE.len1, hE.lenS] at h
    split at h
    · exact nomatch h
    split at h
    · exact nomatch h
    rw [Res.bind_eq_ok] at h
    obtain ⟨a, ha, h⟩ := h
    rw [Res.bind_eq_ok] at h
    obtain ⟨b, hb, h⟩ := h
    rw [Res.bind_eq_ok] at h
    obtain ⟨d, hd, h⟩ := h
    rw [Res.bind_eq_ok] at h
    obtain ⟨x0, hx0, h⟩ := h
    rw [Res.bind_eq_ok] at h
    obtain ⟨x1, hx1, h⟩ := h
    rw [Res.bind_eq_ok] at h
    obtain ⟨ps, hps, h⟩ := h
    injection h with h
    subst h
    rw [List.range_eq_range'] at hps
    obtain ⟨h1, h2⟩ := scalars_inv hC data _ _ 0 ps hps
    rw [ofOption_ok] at ha hb hd hx0 hx1
    unfold PokProof.marshal
    refine ⟨?_, ?_⟩
    · rw [List.take_of_length_le (by rw [List.length_drop]; omega)] at h2
      have t1 := take_drop_drop data 48 48
      have t2 := take_drop_drop data (48 + 48) 48
      have t3 := take_drop_drop data (48 + 48 + 48) 32
      have t4 := take_drop_drop data (48 + 48 + 48 + 32) 32
      simp only []
      rw [← h2, hC.c1 _ _ ha, hC.c1 _ _ hb, hC.c1 _ _ hd, hC.cS _ _ hx0, hC.cS _ _ hx1]
      simp only [List.append_assoc, Nat.zero_mul, Nat.add_zero]
      rw [t4, t3, t2, t1, List.take_append_drop]
    · show 2 ≤ ps.length
      omega

/-- **C81** Keys: a secret key is 32 bytes, a public key 96, and decoding inverts encoding. -/
theorem C81_keys {V : Env F G1 G2} (hE : Enc V) (sk : F) (pk : G2) :
    (skMarshal V sk).length = 32 ∧ skUnmarshal V (skMarshal V sk) = .ok sk ∧
    (pkMarshal V pk).length = 96 ∧ pkUnmarshal V (pkMarshal V pk) = .ok pk := by
  unfold skMarshal skUnmarshal pkMarshal pkUnmarshal
  rw [hE.rtS, hE.rt2]
  exact ⟨hE.lenS _, rfl, hE.len2 _, rfl⟩

end Verif.Bbs
