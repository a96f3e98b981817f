import Verif.Mpc.SigProps

/-! Model of `/repo/x/did/types/pubkey.go` (public keys of the did module) together with the elliptic-curve
interface it reaches (`/repo/crypto/core/curves/ecdsa.go`, `/repo/crypto/core/curves/k256_curve.go`), and property C64.

The curve itself is abstract: a group `G` with coordinates (`Affine`).  `crypto/ecdsa.Verify` of the Go
standard library is not in the repository; what runs for a curve object that is not one of its own is the
generic `verifyLegacy`, transcribed below. -/

set_option linter.unusedSectionVars false

namespace Verif.PubKey
open Verif Verif.Bytes Verif.Dkls Verif.Mpc

variable {F G : Type} [Field F] [DecidableEq F] [AddCommGroup G] [DecidableEq G] [Module F G]

/-- Coordinates of the points of a curve, as the `native.EllipticPoint` methods expose them:
`pt` is native/point.go:358-381 `SetBigInt` (`none`: "invalid coordinates"), `xy` is native/point.go:348-354 `BigInt`. -/
structure Affine (G : Type) where
  p : Nat
  pt : Nat → Nat → Option G
  xy : G → Nat × Nat

/-- What `SetBigInt`/`BigInt` guarantee: coordinates below the 256-bit field prime, the identity written `(0, 0)`,
reading back what was written, and reading only the residues. -/
structure Affine.Spec (A : Affine G) (E : SEnv F G) : Prop where
  x : ∀ P, (A.xy P).1 = E.xc P
  lt : ∀ P, (A.xy P).1 < A.p ∧ (A.xy P).2 < A.p
  p256 : A.p ≤ 2 ^ 256
  zero : A.xy 0 = (0, 0)
  round : ∀ P, A.pt (A.xy P).1 (A.xy P).2 = some P
  red : ∀ x y, A.pt x y = A.pt (x % A.p) (y % A.p)

section
variable (E : SEnv F G) (A : Affine G)

/-- k256_curve.go:88-90, 99-101: the scalar read from (at most 32) big-endian bytes; values from `q` on are refused -/
def fq (k : List UInt8) : Option F :=
  let n := beToNat k % 256 ^ 32
  if n < E.q then some (n : F) else none

/-- k256_curve.go:94-103 `ScalarBaseMult`; `none`: the pair `nil, nil` -/
def scalarBaseMult (k : List UInt8) : Option (Nat × Nat) := (fq E k).map fun s => A.xy (s • E.g)

/-- k256_curve.go:80-92 `ScalarMult` -/
def scalarMult (x y : Nat) (k : List UInt8) : Option (Nat × Nat) :=
  match A.pt x y with
  | none => none
  | some P => (fq E k).map fun s => A.xy (s • P)

/-- k256_curve.go:60-70 `Add`; `SetBigInt` copies its arguments and so panics on a nil coordinate -/
def add (a b : Option (Nat × Nat)) : Res (Option (Nat × Nat)) :=
  match a with
  | none => .panic
  | some (x1, y1) =>
    match A.pt x1 y1 with
    | none => .ok none
    | some P1 =>
      match b with
      | none => .panic
      | some (x2, y2) =>
        match A.pt x2 y2 with
        | none => .ok none
        | some P2 => .ok (some (A.xy (P1 + P2)))

/-- core/curves/ecdsa.go:30-38 `VerifyEcdsa`: Go's `crypto/ecdsa.Verify` on this curve (`verifyLegacy`).
`ModInverse` is the inverse modulo the prime `q`; the digest is cut to 32 bytes. -/
def verifyEcdsa (x y : Nat) (hash : List UInt8) (r s : Nat) : Res Bool :=
  if r = 0 ∨ s = 0 then .ok false
  else if E.q ≤ r ∨ E.q ≤ s then .ok false
  else do
    let e := beToNat (hash.take 32)
    let w := Sign.toNat E (1 / (s : F))
    let u1 := (e * w) % E.q
    let u2 := (r * w) % E.q
    match ← add A (scalarBaseMult E A (natToBE u1)) (scalarMult E A x y (natToBE u2)) with
    | none => .panic
    | some (x, y) => if x = 0 ∧ y = 0 then .ok false else .ok (decide (x % E.q = r))

/-- x/did/types/pubkey.go:62-70 `BuildEcPoint`: the coordinates; slicing panics below 33 bytes -/
def buildEcPoint (key : List UInt8) : Res (Nat × Nat) :=
  if key.length < 33 then .panic
  else .ok (beToNat ((key.drop 1).take 32), beToNat (key.drop 33))

/-- x/did/types/pubkey.go:33-49 `VerifySignature`.  The hash is SHA3-256, the same the keyshares pass to the signing
protocol (crypto/kss/usr.go:48), so it is the environment's message hash. -/
def verifySignature (key msg sig : List UInt8) : Res Bool := do
  let (x, y) ← buildEcPoint key
  match deserializeSig sig with
  | .ok s => verifyEcdsa E A x y (E.msgHash msg) s.R s.S
  | _ => .ok false

/-- core/curves/k256_curve.go:507-516 `ToAffineUncompressed`, the key bytes of crypto/kss/usr.go:66-76 `PublicKey` -/
def uncompressed (P : G) : List UInt8 :=
  4 :: (natToBEfix 32 (A.xy P).1 ++ natToBEfix 32 (A.xy P).2)

end

/-! ### proofs -/

variable {E : SEnv F G} {A : Affine G} {yodd : G → Bool}

theorem pt_zero (hA : A.Spec E) : A.pt 0 0 = some 0 := by
  have := hA.round 0
  rwa [hA.zero] at this

theorem xy_eq_zero (hA : A.Spec E) (P : G) (h1 : (A.xy P).1 = 0) (h2 : (A.xy P).2 = 0) : P = 0 := by
  have := hA.round P
  rw [h1, h2, pt_zero hA] at this
  exact (Option.some.inj this).symm

theorem fq_lt (hq : E.q < 2 ^ 256) (n : Nat) (h : n < E.q) : fq E (natToBE n) = some (n : F) := by
  unfold fq
  have : (2 : Nat) ^ 256 = 256 ^ 32 := by norm_num
  rw [beToNat_natToBE, Nat.mod_eq_of_lt (by omega), if_pos h]

theorem add_ok (hA : A.Spec E) (P Q : G) : add A (some (A.xy P)) (some (A.xy Q)) = .ok (some (A.xy (P + Q))) := by
  unfold add
  rw [show A.xy P = ((A.xy P).1, (A.xy P).2) from rfl, show A.xy Q = ((A.xy Q).1, (A.xy Q).2) from rfl]
  dsimp only
  rw [hA.round, hA.round]

theorem cast_mul (hC : Sign.Curve E yodd) (n s : Nat) :
    (((n * Sign.toNat E (1 / (s : F))) % E.q : Nat) : F) = (n : F) / (s : F) := by
  have := hC.char
  rw [CharP.cast_eq_mod F E.q, Nat.mod_mod, ← CharP.cast_eq_mod F E.q, Nat.cast_mul, Sign.toNat_cast hC]
  ring

theorem q_pos (hC : Sign.Curve E yodd) : 0 < E.q := lt_of_le_of_lt (Nat.zero_le _) (hC.lt 0)

/-- the loop-free body of `verifyEcdsa` on an on-curve key is the ECDSA equation -/
theorem verifyEcdsa_eq (hC : Sign.Curve E yodd) (hA : A.Spec E) (x y : Nat) (Q : G) (hQ : A.pt x y = some Q)
    (hash : List UInt8) (r s : Nat) :
    verifyEcdsa E A x y hash r s = .ok (Sign.ecdsaVerify E Q hash r s) := by
  unfold verifyEcdsa
  by_cases h0 : r = 0 ∨ s = 0
  · rw [if_pos h0]
    unfold Sign.ecdsaVerify
    congr 1
    symm
    rw [decide_eq_false_iff_not]
    rintro ⟨a, -, b, -⟩
    omega
  rw [if_neg h0]
  by_cases h1 : E.q ≤ r ∨ E.q ≤ s
  · rw [if_pos h1]
    unfold Sign.ecdsaVerify
    congr 1
    symm
    rw [decide_eq_false_iff_not]
    rintro ⟨-, a, -, b, -⟩
    omega
  rw [if_neg h1]
  dsimp only
  have hqp := q_pos hC
  unfold scalarBaseMult scalarMult
  rw [fq_lt hC.q256 _ (Nat.mod_lt _ hqp), fq_lt hC.q256 _ (Nat.mod_lt _ hqp), hQ]
  dsimp only [Option.map_some]
  rw [add_ok hA, Res.bind_ok]
  rw [cast_mul hC, cast_mul hC]
  dsimp only
  unfold Sign.ecdsaVerify
  dsimp only
  generalize hX : ((beToNat (hash.take 32) : Nat) : F) / (s : F) = u1
  generalize hY : (r : F) / (s : F) = u2
  by_cases hz : u1 • E.g + u2 • Q = 0
  · have hz0 : (A.xy 0).1 = 0 ∧ (A.xy 0).2 = 0 := by rw [hA.zero]; exact ⟨rfl, rfl⟩
    rw [hz]
    refine (if_pos hz0).trans ?_
    congr 1
    symm
    rw [decide_eq_false_iff_not]
    rintro ⟨-, -, -, -, a, -⟩
    exact a rfl
  · rw [if_neg (fun h => hz (xy_eq_zero hA _ h.1 h.2)), hA.x]
    congr 1
    rw [decide_eq_decide]
    constructor
    · intro h
      exact ⟨by omega, by omega, by omega, by omega, hz, h⟩
    · intro h
      exact h.2.2.2.2.2

/-! ### specification -/

/-- the point a key string stands for, if it is one: any tag byte, `x` in 32 bytes, the rest is `y` -/
def keyPoint (A : Affine G) (key : List UInt8) : Option G :=
  A.pt (beToNat ((key.drop 1).take 32)) (beToNat (key.drop 33))

/-- **C64** The exact acceptance condition of `VerifySignature`: for every key string of at least 33 bytes whose
coordinates are on the curve, every message and every signature string, it returns `true` iff the signature
has 66 bytes and its `R`, `S` satisfy the ECDSA equation for the digest of the message and that point. -/
theorem C64_accepts_iff (hC : Sign.Curve E yodd) (hA : A.Spec E) (key msg sig : List UInt8) (hk : 33 ≤ key.length)
    (Q : G) (hQ : keyPoint A key = some Q) :
    ∃ b, verifySignature E A key msg sig = .ok b ∧
      (b = true ↔ sig.length = 66 ∧
        Sign.ecdsaVerify E Q (E.msgHash msg) (beToNat ((sig.drop 1).take 32)) (beToNat (sig.drop 33)) = true) := by
  unfold verifySignature buildEcPoint
  rw [if_neg (by omega), Res.bind_ok]
  dsimp only
  unfold deserializeSig
  by_cases hs : sig.length = 66
  · rw [if_neg (not_not.2 hs)]
    dsimp only
    rw [verifyEcdsa_eq hC hA _ _ Q hQ]
    exact ⟨_, rfl, by simp [hs]⟩
  · rw [if_pos hs]
    exact ⟨false, rfl, by simp [hs]⟩

/-- **C64** (finding) A key shorter than 33 bytes crashes `VerifySignature`, whatever the message and signature. -/
theorem C64_short_key_panics (key msg sig : List UInt8) (hk : key.length < 33) :
    verifySignature E A key msg sig = .panic := by
  unfold verifySignature buildEcPoint
  rw [if_pos hk]
  rfl

/-- **C64** (finding) A key whose coordinates are not on the curve is not refused: `VerifySignature` panics on every
66 byte signature with `R`, `S` in `[1, q-1]`, and answers `false` on all others. -/
theorem C64_offcurve_panics (hC : Sign.Curve E yodd) (hA : A.Spec E) (key msg sig : List UInt8) (hk : 33 ≤ key.length)
    (hQ : keyPoint A key = none) :
    verifySignature E A key msg sig =
      if sig.length = 66 ∧ (0 < beToNat ((sig.drop 1).take 32) ∧ beToNat ((sig.drop 1).take 32) < E.q) ∧
        (0 < beToNat (sig.drop 33) ∧ beToNat (sig.drop 33) < E.q) then .panic else .ok false := by
  unfold verifySignature buildEcPoint
  rw [if_neg (by omega), Res.bind_ok]
  dsimp only
  unfold deserializeSig
  by_cases hs : sig.length = 66
  · rw [if_neg (not_not.2 hs)]
    dsimp only
    generalize beToNat ((sig.drop 1).take 32) = r
    generalize beToNat (sig.drop 33) = s
    unfold verifyEcdsa
    by_cases h0 : r = 0 ∨ s = 0
    · rw [if_pos h0, if_neg (by omega)]
    rw [if_neg h0]
    by_cases h1 : E.q ≤ r ∨ E.q ≤ s
    · rw [if_pos h1, if_neg (by omega)]
    rw [if_neg h1, if_pos (by omega)]
    dsimp only
    unfold scalarBaseMult scalarMult
    rw [fq_lt hC.q256 _ (Nat.mod_lt _ (q_pos hC))]
    rw [show A.pt (beToNat ((key.drop 1).take 32)) (beToNat (key.drop 33)) = none from hQ]
    unfold add
    dsimp only [Option.map_some]
    have := hA.round (((((beToNat ((E.msgHash msg).take 32)) * Sign.toNat E (1 / (s : F))) % E.q : Nat) : F) • E.g)
    rw [this]
    rfl
  · rw [if_pos hs, if_neg (fun h => hs h.1)]

/-- **C64** (finding) The tag byte of the key and the `V` byte of the signature are ignored: key strings that `Equals`
and `Address` distinguish verify the same signatures. -/
theorem C64_tags_ignored (t t' v v' : UInt8) (key sig msg : List UInt8) :
    verifySignature E A (t :: key) msg (v :: sig) = verifySignature E A (t' :: key) msg (v' :: sig) := by
  unfold verifySignature buildEcPoint deserializeSig
  simp only [List.length_cons, List.drop_succ_cons, List.drop_zero]
  split
  · rfl
  · rw [Res.bind_ok, Res.bind_ok]
    dsimp only
    by_cases h : sig.length + 1 = 66
    · rw [if_neg (not_not.2 h), if_neg (not_not.2 h)]
    · rw [if_pos h, if_pos h]

/-- **C64** (finding) Signatures are malleable: with `(R, S)` also `(R, q - S)` is accepted, under every key. -/
theorem C64_malleable (hC : Sign.Curve E yodd) (hA : A.Spec E) (key msg sig : List UInt8) (hk : 33 ≤ key.length)
    (Q : G) (hQ : keyPoint A key = some Q) (h : verifySignature E A key msg sig = .ok true) :
    verifySignature E A key msg (sig.take 33 ++ natToBEfix 33 (E.q - beToNat (sig.drop 33))) = .ok true := by
  obtain ⟨b, h1, h2⟩ := C64_accepts_iff hC hA key msg sig hk Q hQ
  rw [h] at h1
  cases h1
  obtain ⟨hl, hv⟩ := h2.1 rfl
  have htl : (sig.take 33).length = 33 := by rw [List.length_take]; omega
  obtain ⟨b', h3, h4⟩ := C64_accepts_iff hC hA key msg (sig.take 33 ++ natToBEfix 33 (E.q - beToNat (sig.drop 33))) hk Q hQ
  rw [h3]
  congr 1
  rw [h4]
  refine ⟨by rw [List.length_append, length_natToBEfix, htl], ?_⟩
  have hd : (sig.take 33 ++ natToBEfix 33 (E.q - beToNat (sig.drop 33))).drop 33 =
      natToBEfix 33 (E.q - beToNat (sig.drop 33)) := by
    conv_lhs => rw [← htl]
    rw [htl]
    exact List.drop_left' htl
  have hr : ((sig.take 33 ++ natToBEfix 33 (E.q - beToNat (sig.drop 33))).drop 1).take 32 = (sig.drop 1).take 32 := by
    rw [List.drop_append_of_le_length (by omega), List.take_append_of_le_length (by rw [List.length_drop]; omega)]
    rw [List.drop_take, List.take_take]
    rfl
  rw [hd, hr, beToNat_natToBEfix]
  have hq := hC.q256
  have h256 : (2 : Nat) ^ 256 < 256 ^ 33 := by norm_num
  rw [Nat.mod_eq_of_lt (by omega)]
  generalize beToNat ((sig.drop 1).take 32) = r at hv ⊢
  generalize beToNat (sig.drop 33) = s at hv ⊢
  unfold Sign.ecdsaVerify at hv ⊢
  dsimp only at hv ⊢
  rw [decide_eq_true_eq] at hv ⊢
  obtain ⟨a1, a2, a3, a4, a5, a6⟩ := hv
  have hc : ((E.q - s : Nat) : F) = -(s : F) := by
    have := hC.char
    rw [Nat.cast_sub a4.le, CharP.cast_eq_zero, zero_sub]
  rw [hc, div_neg, div_neg, neg_smul, neg_smul, ← neg_add]
  exact ⟨a1, a2, by omega, by omega, neg_ne_zero.2 a5, by rw [hC.xneg]; exact a6⟩

/-- **C64** (finding) The identity passes as a public key, and under it everyone can sign: for every key string whose
coordinates vanish modulo the field prime (such as 65 zero bytes) and every message whose digest is not `0`
modulo `q`, the signature `R = x(G)`, `S = digest mod q` is accepted. -/
theorem C64_zero_key_forgery (hC : Sign.Curve E yodd) (hA : A.Spec E) (key msg : List UInt8) (hk : 33 ≤ key.length)
    (hx : beToNat ((key.drop 1).take 32) % A.p = 0) (hy : beToNat (key.drop 33) % A.p = 0) (v : UInt8)
    (hg : E.xc E.g % E.q ≠ 0) (hm : beToNat ((E.msgHash msg).take 32) % E.q ≠ 0) :
    verifySignature E A key msg (v :: (natToBEfix 32 (E.xc E.g % E.q) ++
      natToBEfix 33 (beToNat ((E.msgHash msg).take 32) % E.q))) = .ok true := by
  have hQ : keyPoint A key = some 0 := by
    unfold keyPoint
    rw [hA.red, hx, hy, pt_zero hA]
  set r := E.xc E.g % E.q with hr
  set s := beToNat ((E.msgHash msg).take 32) % E.q with hs
  obtain ⟨b, h3, h4⟩ := C64_accepts_iff hC hA key msg (v :: (natToBEfix 32 r ++ natToBEfix 33 s)) hk 0 hQ
  rw [h3]
  congr 1
  rw [h4]
  refine ⟨by simp, ?_⟩
  have hqp := q_pos hC
  have e1 : ((v :: (natToBEfix 32 r ++ natToBEfix 33 s)).drop 1).take 32 = natToBEfix 32 r := by
    rw [List.drop_succ_cons, List.drop_zero, List.take_left' (length_natToBEfix _ _)]
  have e2 : (v :: (natToBEfix 32 r ++ natToBEfix 33 s)).drop 33 = natToBEfix 33 s := by
    rw [List.drop_succ_cons, List.drop_left' (length_natToBEfix _ _)]
  have hq := hC.q256
  have h256 : (2 : Nat) ^ 256 < 256 ^ 33 := by norm_num
  have h256' : (2 : Nat) ^ 256 = 256 ^ 32 := by norm_num
  have hrq : r < E.q := Nat.mod_lt _ hqp
  have hsq : s < E.q := Nat.mod_lt _ hqp
  rw [e1, e2, beToNat_natToBEfix, beToNat_natToBEfix, Nat.mod_eq_of_lt (by omega), Nat.mod_eq_of_lt (by omega)]
  unfold Sign.ecdsaVerify
  dsimp only
  rw [decide_eq_true_eq, smul_zero, add_zero]
  have hch := hC.char
  have hse : ((beToNat ((E.msgHash msg).take 32) : Nat) : F) = (s : F) := by
    rw [hs, ← CharP.cast_eq_mod F E.q]
  have hs0 : (s : F) ≠ 0 := by
    intro h
    rw [CharP.cast_eq_zero_iff F E.q] at h
    exact hm (Nat.eq_zero_of_dvd_of_lt h hsq)
  rw [hse, div_self hs0, one_smul]
  exact ⟨Nat.pos_of_ne_zero hg, hrq, Nat.pos_of_ne_zero hm, hsq, hC.gne, rfl⟩

/-! ### keys and signatures of the keyshares -/

theorem uncompressed_length (P : G) : (uncompressed A P).length = 65 := by
  simp [uncompressed]

theorem uncompressed_point (hA : A.Spec E) (P : G) : keyPoint A (uncompressed A P) = some P := by
  have h256' : (2 : Nat) ^ 256 = 256 ^ 32 := by norm_num
  have hp := hA.p256
  obtain ⟨l1, l2⟩ := hA.lt P
  unfold keyPoint uncompressed
  rw [List.drop_succ_cons, List.drop_zero, List.take_left' (length_natToBEfix _ _), List.drop_succ_cons,
    List.drop_left' (length_natToBEfix _ _), beToNat_natToBEfix, beToNat_natToBEfix,
    Nat.mod_eq_of_lt (by omega), Nat.mod_eq_of_lt (by omega), hA.round]

/-- the recovery id Bob outputs is a bit -/
theorem bobRound4_V (b : Sign.Bob F G) (message : List UInt8) (m : Sign.Round3Output F G) (sig : Sign.Signature)
    (h : Sign.bobRound4 E b message m = .ok sig) : sig.V < 2 := by
  unfold Sign.bobRound4 at h
  dsimp only [OT.Env.extract] at h
  obtain ⟨t0, -, h⟩ := Res.bind_eq_ok.1 h
  obtain ⟨t1, -, h⟩ := Res.bind_eq_ok.1 h
  obtain ⟨hR, -, h⟩ := Res.bind_eq_ok.1 h
  split at h
  · cases h
  obtain ⟨rX, -, h⟩ := Res.bind_eq_ok.1 h
  obtain ⟨h1, -, h⟩ := Res.bind_eq_ok.1 h
  obtain ⟨d, -, h⟩ := Res.bind_eq_ok.1 h
  obtain ⟨h2, -, h⟩ := Res.bind_eq_ok.1 h
  split at h
  · cases h
  · cases h
    have key : ∀ n : Fin 256, ((UInt8.ofNat n.val &&& 1).toNat < 2) ∧ ((UInt8.ofNat n.val &&& 1).toNat ^^^ 1 < 2) := by
      decide +kernel
    have hb : ∀ x : UInt8, (x &&& 1).toNat < 2 ∧ (x &&& 1).toNat ^^^ 1 < 2 := by
      intro x
      have := key ⟨x.toNat, UInt8.toNat_lt x⟩
      simpa using this
    dsimp only
    unfold Sign.normalize
    split
    · exact (hb _).2
    · exact (hb _).1

/-- `RunSignProtocol` including the serialisation (mpc/mpc.go:66-79) -/
def runSignBytes (E : SEnv F G) (ks : AliceOutput F G × BobOutput F G) (message : List UInt8) (r : SignRand F) :
    Res (List UInt8) := do
  let s ← runSign E ks message r
  serializeSig s

theorem runSign_V (ks : AliceOutput F G × BobOutput F G) (message : List UInt8) (r : SignRand F) (sig : Sign.Signature)
    (h : runSign E ks message r = .ok sig) : sig.V < 2 := by
  rw [C31_runSign] at h
  unfold signRun at h
  obtain ⟨⟨b, m2⟩, -, h⟩ := Res.bind_eq_ok.1 h
  obtain ⟨m3, -, h⟩ := Res.bind_eq_ok.1 h
  exact bobRound4_V _ _ _ _ h

theorem bytes_of_sig (hC : Sign.Curve E yodd) (hA : A.Spec E) (P : G) (message : List UInt8) (sig : Sign.Signature)
    (hV : sig.V < 2) (hv : Sign.ecdsaVerify E P (E.msgHash message) sig.R sig.S = true) :
    ∃ bz, serializeSig sig = .ok bz ∧ verifySignature E A (uncompressed A P) message bz = .ok true := by
  have hq := hC.q256
  have hr : sig.R < E.q ∧ sig.S < E.q := by
    unfold Sign.ecdsaVerify at hv
    dsimp only at hv
    rw [decide_eq_true_eq] at hv
    exact ⟨hv.2.1, hv.2.2.2.1⟩
  have h264 : (2 : Nat) ^ 256 < 2 ^ 264 := Nat.pow_lt_pow_right (by omega) (by omega)
  obtain ⟨r1, r2⟩ := C53_roundtrip sig (by omega) (by omega) (by omega)
  refine ⟨_, r1, ?_⟩
  have hl : ∀ b, deserializeSig b = .ok sig → b.length = 66 ∧ beToNat ((b.drop 1).take 32) = sig.R ∧ beToNat (b.drop 33) = sig.S := by
    intro b hb
    unfold deserializeSig at hb
    split at hb
    · cases hb
    · rename_i hn
      cases hb
      exact ⟨not_not.1 hn, rfl, rfl⟩
  obtain ⟨l1, l2, l3⟩ := hl _ r2
  obtain ⟨b, h3, h4⟩ := C64_accepts_iff hC hA (uncompressed A P) message
    (UInt8.ofNat sig.V :: (natToBEfix 32 sig.R ++ natToBEfix 33 sig.S)) (by rw [uncompressed_length]; omega) P
    (uncompressed_point hA P)
  rw [h3]
  congr 1
  rw [h4]
  exact ⟨l1, by rw [l2, l3]; exact hv⟩

/-- **C64** Keys and signatures fit together over the whole life cycle: if key generation, any number of refreshes
and a signing run succeed — whatever the randomness — the bytes `RunSignProtocol` returns are accepted by
`VerifySignature` for that message under the public key of the keyshare set as it was first generated. -/
theorem C64_keyshare_signature_verifies (hC : Sign.Curve E yodd) (hA : A.Spec E) (r : Dkg.Rand F)
    (rs : List (Refresh.Rand F)) (message : List UInt8) (sr : SignRand F) (ks ks' : AliceOutput F G × BobOutput F G)
    (bz : List UInt8) (h1 : generateKss E.toMulEnv.toEnv r = .ok ks) (h2 : runRefreshes E.toMulEnv.toEnv ks rs = .ok ks')
    (h3 : runSignBytes E ks' message sr = .ok bz) :
    verifySignature E A (uncompressed A ks.2.publicKey) message bz = .ok true := by
  obtain ⟨sig, h4, h5⟩ := Res.bind_eq_ok.1 h3
  have hv := C31_lifecycle_sound E r rs message sr ks ks' sig h1 h2 h4
  obtain ⟨bz', e1, e2⟩ := bytes_of_sig hC hA ks.2.publicKey message sig (runSign_V _ _ _ _ h4) hv
  rw [h5] at e1
  cases e1
  exact e2

/-- **C64** … and the serialisation never fails on them: when signing succeeds so does `RunSignProtocol`. -/
theorem C64_sign_serialises (hC : Sign.Curve E yodd) (hA : A.Spec E) (r : Dkg.Rand F)
    (rs : List (Refresh.Rand F)) (message : List UInt8) (sr : SignRand F) (ks ks' : AliceOutput F G × BobOutput F G)
    (sig : Sign.Signature) (h1 : generateKss E.toMulEnv.toEnv r = .ok ks)
    (h2 : runRefreshes E.toMulEnv.toEnv ks rs = .ok ks') (h3 : runSign E ks' message sr = .ok sig) :
    ∃ bz, runSignBytes E ks' message sr = .ok bz ∧ bz.length = 66 := by
  have hv := C31_lifecycle_sound E r rs message sr ks ks' sig h1 h2 h3
  obtain ⟨bz, e1, e2⟩ := bytes_of_sig hC hA ks.2.publicKey message sig (runSign_V _ _ _ _ h3) hv
  refine ⟨bz, by unfold runSignBytes; rw [h3]; exact e1, ?_⟩
  obtain ⟨b, h4, h5⟩ := C64_accepts_iff hC hA (uncompressed A ks.2.publicKey) message bz
    (by rw [uncompressed_length]; omega) ks.2.publicKey (uncompressed_point hA _)
  rw [e2] at h4
  cases h4
  exact (h5.1 rfl).1

/-! ### the hypotheses are met: coordinates for the toy curve -/

section
local instance fact257 : Fact (Nat.Prime 257) := ⟨by norm_num⟩
open Verif.Dkls.Sign

/-- coordinates on the toy curve `ZMod 257`: `x = min(n, 257 - n)`, `y` is 1 or 2 -/
def toyAff : Affine (ZMod 257) where
  p := 257
  pt x y :=
    let x := x % 257
    let y := y % 257
    if x = 0 ∧ y = 0 then some 0
    else if 0 < x ∧ x ≤ 128 ∧ y = 1 then some (x : ZMod 257)
    else if 0 < x ∧ x ≤ 128 ∧ y = 2 then some (-(x : ZMod 257))
    else none
  xy P := (toyX P, if P = 0 then 0 else if P.val ≤ 128 then 1 else 2)

theorem toy_spec : toyAff.Spec toyS where
  x _ := rfl
  lt := by decide +kernel
  p256 := by decide +kernel
  zero := by decide +kernel
  round := by decide +kernel
  red x y := by
    show (toyAff.pt x y) = toyAff.pt (x % 257) (y % 257)
    simp only [toyAff, Nat.mod_mod]

/-- a key, message and signature accepted (`65` byte key of the point `165`, the signature of the run in `C30`) -/
example : ∃ bz, verifySignature toyS toyAff (uncompressed toyAff 165) [1, 2, 3] bz = .ok true := by
  have h : ∃ r ∈ List.range 257, ∃ s ∈ List.range 257, ecdsaVerify toyS 165 (toyS.msgHash [1, 2, 3]) r s = true := by
    decide +kernel
  obtain ⟨r, -, s, -, h⟩ := h
  obtain ⟨bz, -, h2⟩ := bytes_of_sig toy_curve toy_spec 165 [1, 2, 3] ⟨0, r, s⟩ (by show 0 < 2; decide) h
  exact ⟨bz, h2⟩

/-- an off-curve key exists, and the forgery under the zero key has its conditions met -/
example : keyPoint toyAff (4 :: (List.replicate 63 0 ++ [9])) = none ∧
    toyS.xc toyS.g % toyS.q ≠ 0 ∧ beToNat ((toyS.msgHash [1, 2, 3]).take 32) % toyS.q ≠ 0 := by decide +kernel

end

end Verif.PubKey
