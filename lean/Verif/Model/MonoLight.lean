import Verif.Model.Host
/-!
# `examples/monolight/monolight.rs`: the example device shipped with the library

The program creates a device for a mono functional lighting (029101), registers itself as request handler and
starts the device; everything else happens in the receiver threads. The `MonoLight` value is the application
state `S` of the node: its only field besides the device is `on`. Locking (`Arc<Mutex<MonoLight>>`) is the
subject of `Verif/Model/Locks.lean`; here a handler call is one step.
-/
namespace Uecho

/-- The code given to `Device::new` (examples/monolight/monolight.rs:33). -/
def monoLightCode : UInt32 := 0x029101

/-- `impl RequestHandler for MonoLight` (examples/monolight/monolight.rs:58-92); `self.device.code()` is
`monoLightCode`; `turn_on` / `turn_off` (40-46) set the state. `Bytes::to_u32` panics for more than four bytes in
a debug build (C12); a handler of the model cannot panic, so the model refuses there, and `C68_no_panic` proves
that this case does not occur. -/
def monoLightHandler (b : Build) : Handler Bool := fun on deoj esv prop =>
  if deoj.code ≠ monoLightCode then (false, deoj, on)
  else match esv with
  | .WriteRequest | .WriteReadRequest =>
    if prop.code = 0x80 then
      match bytesToU32 b prop.data with
      | .ok v =>
        if v = 0x30 then (true, deoj, true)
        else if v = 0x31 then (true, deoj, false)
        else (false, deoj, on)
      | .panic => (false, deoj, on)
    else (false, deoj, on)
  | _ => (false, deoj, on)

/-- `MonoLight::new` (examples/monolight/monolight.rs:31-38): the device, with the light off and the handler
registered. -/
def monoLightNew (b : Build) (db : Database) (uuid : Nat → List UInt8) (ω : HashOrder) :
    Res (Device × Node Bool) := do
  let r ← Device.new b db uuid ω monoLightCode false
  pure (r.1, r.1.setRequestHandler r.2 (monoLightHandler b))

end Uecho
