import Verif.App.PubKey

/-! Model of `/repo/internal/actor/controller.go`: the actor that answers signing requests, and property C63. -/

namespace Verif.Actor
open Verif

/-- what `ctx.Respond` is given: an error, or a `Signature` whose data may be nil (internal/actor/types.go:13-21) -/
inductive Response where
  | error
  | signature (data : Option (List UInt8))
deriving DecidableEq, Repr

/-- The environment of the actor: `uks`/`vks` are the results of `GetSignFunc` on the two keyshares (`none`: error),
`run` is `mpc.RunSignProtocol` when both parties exist, `first` says whether the validator's first step fails
(it runs before the user party is touched). -/
structure Env (U V : Type) where
  uks : List UInt8 → Option U
  vks : List UInt8 → Option V
  first : V → Bool
  run : V → U → Res (List UInt8)

variable {U V : Type}

/-- mpc/mpc.go:66-79 `RunSignProtocol` on possibly nil parties: a method call on a nil party panics; the validator's
first step comes first (mpc/mpc.go:42-52), and its error is returned before the user party is used -/
def runSign (E : Env U V) (v : Option V) (u : Option U) : Res (List UInt8) :=
  match v with
  | none => .panic
  | some v =>
    match u with
    | none => if E.first v then .err else .panic
    | some u => E.run v u

/-- controller.go:27-41 `runSignProtocol`: the responses sent, in order, and whether the handler then panicked -/
def handle (E : Env U V) (msg : List UInt8) : List Response × Bool :=
  let uSign := E.uks msg
  let out := if uSign.isNone then [.error] else []
  let vSign := E.vks msg
  let out := out ++ if vSign.isNone then [.error] else []
  match runSign E vSign uSign with
  | .panic => (out, true)
  | .err => (out ++ [.error, .signature none], false)
  | .ok sig => (out ++ [.signature (some sig)], false)

/-! ### specification -/

/-- the request can be served: both keyshares yield a signing function and the protocol returns a signature -/
def Served (E : Env U V) (msg sig : List UInt8) : Prop :=
  ∃ u v, E.uks msg = some u ∧ E.vks msg = some v ∧ E.run v u = .ok sig

/-- **C63** A request that can be served gets exactly one response, the signature, and the handler survives;
and a response carrying signature bytes is only ever sent for such a request. -/
theorem C63_served (E : Env U V) (msg sig : List UInt8) :
    Response.signature (some sig) ∈ (handle E msg).1 ↔ Served E msg sig ∧ handle E msg = ([.signature (some sig)], false) := by
  constructor
  · intro h
    unfold handle at h ⊢
    rcases hu : E.uks msg with _ | u <;> rcases hv : E.vks msg with _ | v <;> simp only [hu, hv, runSign] at h ⊢
    · simp at h
    · by_cases hf : E.first v = true
      · rw [if_pos hf] at h; simp at h
      · rw [if_neg hf] at h; simp at h
    · simp at h
    · rcases hr : E.run v u with s | _ | _
      · simp only [hr] at h ⊢
        simp at h
        subst h
        exact ⟨⟨u, v, hu, hv, hr⟩, rfl⟩
      · simp [hr] at h
      · simp [hr] at h
  · rintro ⟨-, h⟩
    rw [h]
    exact List.mem_singleton.2 rfl

/-- **C63** (negation) No failing request gets a single error response: whatever fails, the actor sends an error and
then either an empty signature as well, or panics. -/
theorem C63_failure_not_single_error (E : Env U V) (msg : List UInt8) (h : ¬ ∃ sig, Served E msg sig) :
    handle E msg ≠ ([.error], false) ∧
    ((handle E msg).2 = true ∨ ∃ pre, (handle E msg).1 = pre ++ [.error, .signature none]) := by
  unfold handle
  rcases hu : E.uks msg with _ | u <;> rcases hv : E.vks msg with _ | v <;> simp only [runSign]
  · simp
  · by_cases hf : E.first v = true
    · rw [if_pos hf]; exact ⟨by simp, Or.inr ⟨[.error], rfl⟩⟩
    · rw [if_neg hf]; simp
  · simp
  · rcases hr : E.run v u with s | _ | _
    · exact absurd ⟨s, u, v, hu, hv, hr⟩ h
    · simp
    · simp

/-- **C63** The exact responses in the ordinary failure: both keyshares are good and the protocol reports an error. -/
theorem C63_protocol_error (E : Env U V) (msg : List UInt8) (u : U) (v : V) (hu : E.uks msg = some u)
    (hv : E.vks msg = some v) (hr : E.run v u = .err) :
    handle E msg = ([.error, .signature none], false) := by
  unfold handle
  simp [hu, hv, runSign, hr]

/-- the actor over the DKLs keyshares of C31: what `run` is for a decoded keyshare set -/
def kssEnv {F G : Type} [Field F] [DecidableEq F] [AddCommGroup G] [DecidableEq G] [Module F G] (E : Dkls.SEnv F G)
    (ks : Option (Dkls.AliceOutput F G) × Option (Dkls.BobOutput F G)) (r : Mpc.SignRand F) (msg : List UInt8) :
    Env (Dkls.BobOutput F G) (Dkls.AliceOutput F G) where
  uks _ := ks.2
  vks _ := ks.1
  first _ := false
  run v u := PubKey.runSignBytes E (v, u) msg r

/-- **C63** Through the actor: a signature it sends for a request verifies under the public key of the user share. -/
theorem C63_sent_signature_verifies {F G : Type} [Field F] [DecidableEq F] [AddCommGroup G] [DecidableEq G] [Module F G]
    {E : Dkls.SEnv F G} {A : PubKey.Affine G} {yodd : G → Bool} (hC : Dkls.Sign.Curve E yodd) (hA : A.Spec E)
    (a : Option (Dkls.AliceOutput F G)) (b : Option (Dkls.BobOutput F G)) (r : Mpc.SignRand F) (msg sig : List UInt8)
    (h : Response.signature (some sig) ∈ (handle (kssEnv E (a, b) r msg) msg).1) :
    ∃ u, b = some u ∧ PubKey.verifySignature E A (PubKey.uncompressed A u.publicKey) msg sig = .ok true := by
  obtain ⟨⟨u, v, hu, hv, hr⟩, -⟩ := (C63_served _ _ _).1 h
  refine ⟨u, hu, ?_⟩
  obtain ⟨s, h1, h2⟩ := Res.bind_eq_ok.1 hr
  have hV := PubKey.runSign_V _ _ _ _ h1
  have hver : Dkls.Sign.ecdsaVerify E u.publicKey (E.msgHash msg) s.R s.S = true := by
    rw [Mpc.C31_runSign] at h1
    unfold Mpc.signRun at h1
    obtain ⟨⟨bb, m2⟩, h4, h3⟩ := Res.bind_eq_ok.1 h1
    obtain ⟨m3, -, h3⟩ := Res.bind_eq_ok.1 h3
    obtain ⟨_, _, _, _, _, _, _, _, _, _, _, hb, hh, _⟩ := Dkls.Sign.bobRound2_inv E _ _ _ _ _ _ _ _ _ bb m2 h4
    have := Dkls.Sign.C30_output_verifies E bb msg m3 s h3
    rwa [hb, hh] at this
  obtain ⟨bz, e1, e2⟩ := PubKey.bytes_of_sig hC hA u.publicKey msg s hV hver
  rw [h2] at e1
  cases e1
  exact e2

/-- a served request, a failing protocol, a broken user share -/
def toy (ok : Bool) : Env Unit Unit where
  uks m := if m = [0] then none else some ()
  vks _ := some ()
  first _ := false
  run _ _ := if ok then .ok [1, 2] else .err

example : handle (toy true) [5] = ([.signature (some [1, 2])], false) ∧
    handle (toy false) [5] = ([.error, .signature none], false) ∧
    handle (toy true) [0] = ([.error], true) := by decide

end Verif.Actor
