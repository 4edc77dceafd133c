import Verif.Model.Object
/-!
# `src/message.rs` and `Object::message_received` (`src/object.rs`)
-/
namespace Uecho

/-- `NODE_PROFILE_OBJECT_CODE` (src/node_profile.rs:20). -/
def nodeProfileCode : UInt32 := 0x0EF001
/-- `NODE_PROFILE_OBJECT_READ_ONLY` (src/node_profile.rs:21). -/
def nodeProfileReadOnlyCode : UInt32 := 0x0EF002
/-- `SUPER_OBJECT_CODE` (src/super_object.rs:21). -/
def superObjectCode : UInt32 := 0x000000
/-- `PORT` (src/transport/default.rs:19). -/
def port : UInt16 := 3610

/-- `SearchMessage::from_object_code` (src/message.rs:25-37). -/
def searchMessageFrom (code : UInt32) : Message :=
  let msg := Message.new
  let msg := msg.setEsv .ReadRequest
  let msg := msg.setSeoj nodeProfileCode
  let msg := msg.setDeoj code
  msg.addProperty { WProperty.new with code := 0xD6 }

/-- `SearchMessage::new` (src/message.rs:39-41). -/
def searchMessage : Message := searchMessageFrom nodeProfileCode

/-- The ESV chosen by `ResponseErrorMessage::from` (src/message.rs:49-77). -/
def errorEsv : ESV → ESV
  | .WriteRequest => .WriteRequestError
  | .WriteRequestResponseRequired => .WriteRequestResponseRequiredError
  | .ReadRequest => .ReadRequestError
  | .WriteReadRequest => .WriteReadRequestError
  | .NotificationRequest => .NotificationRequestError
  | .NotificationResponseRequired => .NotificationRequestError
  | _ => .Unknown

/-- `ResponseErrorMessage::from` (src/message.rs:47-98). For the write-read error the *set* list is
added twice, to the plain property list (lines 83-90). -/
def responseErrorMessage (req : Message) : Message :=
  let msg := Message.new
  let msg := msg.setEsv (errorEsv req.esv)
  let msg := msg.setTid req.tid
  let msg := msg.setSeoj req.deoj
  let msg := msg.setDeoj req.seoj
  match msg.esv with
  | .WriteReadRequestError =>
    let msg := req.setProperties.foldl Message.addProperty msg
    req.setProperties.foldl Message.addProperty msg
  | _ => req.properties.foldl Message.addProperty msg

/-- The ESV chosen by `ResponseMessage::from` (src/message.rs:107-131). -/
def responseEsv : ESV → ESV
  | .WriteRequestResponseRequired => .WriteResponse
  | .ReadRequest => .ReadResponse
  | .WriteReadRequest => .WriteReadResponse
  | .NotificationRequest => .Notification
  | .NotificationResponseRequired => .NotificationResponse
  | _ => .Unknown

/-- `ResponseMessage::from` (src/message.rs:104-135). -/
def responseMessage (req : Message) : Message :=
  let msg := Message.new
  let msg := msg.setTid req.tid
  let msg := msg.setEsv (responseEsv req.esv)
  let msg := msg.setSeoj req.deoj
  msg.setDeoj req.seoj

/-- The inner loop of `NodeProfileMessage::parse` (src/message.rs:171-178): `step_by(3)` from index 1;
the data after the count byte is cut into groups of three, a shorter last group is skipped.
`Bytes::to_u32` of three bytes never overflows (see `C11`/`C12`), but its `Res` is kept. -/
def parseObjectCodes (b : Build) : List UInt8 → Res (List UInt32)
  | x :: y :: z :: rest => do
    let c ← bytesToU32 b [x, y, z]
    let cs ← parseObjectCodes b rest
    pure (c :: cs)
  | _ => .ok []

/-- The loop body of `NodeProfileMessage::parse` (src/message.rs:157-179) for one property. -/
def parseInstanceList (b : Build) (p : WProperty) : Res (List UInt32) :=
  if p.code ≠ 0xD6 then .ok []
  else match p.data with
  | [] => .ok []
  | n :: rest =>
    if p.data.length < n.toNat * 3 + 1 then .ok []
    else parseObjectCodes b rest

/-- `NodeProfileMessage::parse` (src/message.rs:155-181) followed by `object_codes`
(151-153); the boolean result is always `true`. The index loop `0..opc` over `property(n)` is the
traversal of the property list. -/
def nodeProfileObjectCodes (b : Build) : List WProperty → Res (List UInt32)
  | [] => .ok []
  | p :: ps => do
    let cs ← parseInstanceList b p
    let cs' ← nodeProfileObjectCodes b ps
    pure (cs ++ cs')

/-- `Message::is_node_profile_message` (src/message.rs:185-195). -/
def Message.isNodeProfileMessage (m : Message) : Bool :=
  if m.esv ≠ .Notification ∧ m.esv ≠ .ReadResponse then false
  else if m.deoj ≠ nodeProfileCode ∧ m.deoj ≠ nodeProfileReadOnlyCode then false
  else true

/-- The loop reading property data into a response (src/object.rs:308-318, 327-337): `none` stands for
the early `return Some(ResponseErrorMessage::from(req_msg))`. -/
def Object.readLoop (o : Object) (add : Message → WProperty → Message) :
    Message → List WProperty → Option Message
  | res, [] => some res
  | res, rp :: rps =>
    match o.findProperty rp.code with
    | none => none
    | some p => Object.readLoop o add (add res ⟨p.code, p.data⟩) rps

/-- The loop acknowledging written properties with empty data (src/object.rs:299-303, 322-326). -/
def ackLoop (add : Message → WProperty → Message) (res : Message) (ps : List WProperty) : Message :=
  ps.foldl (fun r p => add r { WProperty.new with code := p.code }) res

/-- `Object::message_received` (src/object.rs:293-344). -/
def Object.messageReceived (o : Object) (req : Message) : Option Message :=
  let res := responseMessage req
  match req.esv with
  | .WriteRequestResponseRequired | .NotificationResponseRequired =>
    some (ackLoop Message.addProperty res req.properties)
  | .ReadRequest | .NotificationRequest =>
    match o.readLoop Message.addProperty res req.properties with
    | none => some (responseErrorMessage req)
    | some m => some m
  | .WriteReadRequest =>
    match o.readLoop Message.addPropertyGet (ackLoop Message.addPropertySet res req.setProperties)
        req.getProperties with
    | none => some (responseErrorMessage req)
    | some m => some m
  | _ => none

end Uecho
