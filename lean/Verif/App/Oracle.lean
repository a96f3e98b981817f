/-
Model of the x/oracle IBC middleware and its properties (C56).

The underlying IBC application and the ICS-4 layer below are arbitrary, including their effects: both
live in an arbitrary monad.
-/

set_option linter.unusedSectionVars false

namespace Verif.App.Oracle

/-- Types of the IBC interfaces (ibc-go), opaque to the middleware. -/
structure Ty where
  Ctx : Type
  Order : Type
  Cap : Type
  Counterparty : Type
  Height : Type
  Packet : Type
  Addr : Type
  Ack : Type
  Err : Type

variable (T : Ty) (m : Type → Type)

/-- The IBC application callbacks, x/oracle/ibc_middleware.go:34-121 (`porttypes.IBCModule`). -/
structure App where
  onChanOpenInit : T.Ctx → T.Order → List String → String → String → T.Cap → T.Counterparty → String →
    m (String × Option T.Err)
  onChanOpenTry : T.Ctx → T.Order → List String → String → String → T.Cap → T.Counterparty → String →
    m (String × Option T.Err)
  onChanOpenAck : T.Ctx → String → String → String → String → m (Option T.Err)
  onChanOpenConfirm : T.Ctx → String → String → m (Option T.Err)
  onChanCloseInit : T.Ctx → String → String → m (Option T.Err)
  onChanCloseConfirm : T.Ctx → String → String → m (Option T.Err)
  onRecvPacket : T.Ctx → T.Packet → T.Addr → m T.Ack
  onAcknowledgementPacket : T.Ctx → T.Packet → List UInt8 → T.Addr → m (Option T.Err)
  onTimeoutPacket : T.Ctx → T.Packet → T.Addr → m (Option T.Err)

/-- The ICS-4 layer, x/oracle/keeper/keeper.go:42-78 (`porttypes.ICS4Wrapper`). -/
structure ICS4 where
  sendPacket : T.Ctx → T.Cap → (sourcePort sourceChannel : String) → T.Height → UInt64 → List UInt8 →
    m (UInt64 × Option T.Err)
  writeAcknowledgement : T.Ctx → T.Cap → T.Packet → T.Ack → m (Option T.Err)
  getAppVersion : T.Ctx → (portID channelID : String) → m (String × Bool)

variable {T m}

/-- x/oracle/keeper/keeper.go:42-78: the keeper passes the three calls on to its wrapper. -/
def keeper (w : ICS4 T m) : ICS4 T m where
  sendPacket ctx chanCap sourcePort sourceChannel timeoutHeight timeoutTimestamp data :=
    w.sendPacket ctx chanCap sourcePort sourceChannel timeoutHeight timeoutTimestamp data
  writeAcknowledgement ctx chanCap packet acknowledgement := w.writeAcknowledgement ctx chanCap packet acknowledgement
  getAppVersion ctx portID channelID := w.getAppVersion ctx portID channelID

/-- x/oracle/ibc_middleware.go:34-121: the application side of the middleware. -/
def middlewareApp (app : App T m) : App T m where
  onChanOpenInit ctx order hops portID channelID chanCap counterparty version :=
    app.onChanOpenInit ctx order hops portID channelID chanCap counterparty version
  onChanOpenTry ctx order hops portID channelID chanCap counterparty counterpartyVersion :=
    app.onChanOpenTry ctx order hops portID channelID chanCap counterparty counterpartyVersion
  onChanOpenAck ctx portID channelID counterpartyChannelID counterpartyVersion :=
    app.onChanOpenAck ctx portID channelID counterpartyChannelID counterpartyVersion
  onChanOpenConfirm ctx portID channelID := app.onChanOpenConfirm ctx portID channelID
  onChanCloseInit ctx portID channelID := app.onChanCloseInit ctx portID channelID
  onChanCloseConfirm ctx portID channelID := app.onChanCloseConfirm ctx portID channelID
  onRecvPacket ctx packet relayer := app.onRecvPacket ctx packet relayer
  onAcknowledgementPacket ctx packet acknowledgement relayer :=
    app.onAcknowledgementPacket ctx packet acknowledgement relayer
  onTimeoutPacket ctx packet relayer := app.onTimeoutPacket ctx packet relayer

/-- x/oracle/ibc_middleware.go:124-168: the ICS-4 side of the middleware.  `SendPacket` passes
`sourceChannel` twice. -/
def middlewareIcs4 (w : ICS4 T m) : ICS4 T m where
  sendPacket ctx chanCap _sourcePort sourceChannel timeoutHeight timeoutTimestamp data :=
    (keeper w).sendPacket ctx chanCap sourceChannel sourceChannel timeoutHeight timeoutTimestamp data
  writeAcknowledgement ctx chanCap packet ack := (keeper w).writeAcknowledgement ctx chanCap packet ack
  getAppVersion ctx portID channelID := (keeper w).getAppVersion ctx portID channelID

/-- **C56** every callback into the application goes through unchanged: for any application, in any
monad, the wrapped application is the application. -/
theorem C56_callbacks_transparent (app : App T m) : middlewareApp app = app := rfl

/-- **C56** acknowledgements and version queries on the way down are passed through unchanged. -/
theorem C56_ack_version_transparent (w : ICS4 T m) :
    (∀ ctx cap p a, (middlewareIcs4 w).writeAcknowledgement ctx cap p a = w.writeAcknowledgement ctx cap p a) ∧
    ∀ ctx port channel, (middlewareIcs4 w).getAppVersion ctx port channel = w.getAppVersion ctx port channel :=
  ⟨fun _ _ _ _ => rfl, fun _ _ _ => rfl⟩

/-- **C56** the keeper itself passes all three calls through unchanged. -/
theorem C56_keeper_transparent (w : ICS4 T m) : keeper w = w := rfl

/-- **C56** (negation) a packet sent through the middleware leaves on the port named by its *channel*:
it reaches the layer below as a packet sent on `(sourceChannel, sourceChannel)`. -/
theorem C56_send_packet_port (w : ICS4 T m) (ctx : T.Ctx) (cap : T.Cap) (port channel : String)
    (th : T.Height) (ts : UInt64) (data : List UInt8) :
    (middlewareIcs4 w).sendPacket ctx cap port channel th ts data = w.sendPacket ctx cap channel channel th ts data :=
  rfl

/-- **C56** (negation) so the middleware is transparent for a packet, over all layers below, exactly
when the port and channel identifiers happen to be the same string. -/
theorem C56_send_packet_iff [Monad m] (ctx : T.Ctx) (cap : T.Cap) (port channel : String)
    (th : T.Height) (ts : UInt64) (data : List UInt8)
    (hm : ∀ x y : UInt64 × Option T.Err, (pure x : m _) = pure y → x = y) :
    (∀ w : ICS4 T m, (middlewareIcs4 w).sendPacket ctx cap port channel th ts data = w.sendPacket ctx cap port channel th ts data) ↔
      port = channel := by
  constructor
  · intro h
    have := h ⟨fun _ _ p _ _ _ _ => pure (if p = port then 1 else 0, none), fun _ _ _ _ => pure none,
      fun _ _ _ => pure ("", false)⟩
    rw [C56_send_packet_port] at this
    have e := hm _ _ this
    by_cases hc : channel = port
    · exact hc.symm
    · rw [if_neg hc, if_pos rfl] at e
      exact absurd (congrArg Prod.fst e) (by show ¬ ((0 : UInt64) = 1); decide)
  · rintro rfl w
    rfl

/-! ## The hypotheses are met -/

/-- all opaque types are `Unit` -/
def unitTy : Ty := ⟨Unit, Unit, Unit, Unit, Unit, Unit, Unit, Unit, Unit⟩

/-- a layer below that logs the port and channel of what it sends -/
def logging : ICS4 unitTy (StateM (List (String × String))) where
  sendPacket _ _ p c _ _ _ := fun log => ((1, none), (p, c) :: log)
  writeAcknowledgement _ _ _ _ := pure none
  getAppVersion _ _ _ := pure ("v", true)

example : ((middlewareIcs4 logging).sendPacket () () "transfer" "channel-0" () 0 []).run [] =
    ((1, none), [("channel-0", "channel-0")]) := rfl

example : ∀ x y : UInt64 × Option unitTy.Err,
    (pure x : StateM (List (String × String)) _) = pure y → x = y := by
  intro x y h
  have := congrFun h []
  exact congrArg Prod.fst this

end Verif.App.Oracle
