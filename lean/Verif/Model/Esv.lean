/-!
# `src/protocol/esv.rs`
-/
namespace Uecho

/-- `enum ESV` (src/protocol/esv.rs:21-39), in source order (the order of `ESV::iter()`). -/
inductive ESV where
  | Unknown
  | WriteRequest
  | WriteRequestResponseRequired
  | ReadRequest
  | NotificationRequest
  | WriteReadRequest
  | WriteResponse
  | ReadResponse
  | Notification
  | NotificationResponseRequired
  | NotificationResponse
  | WriteReadResponse
  | WriteRequestError
  | WriteRequestResponseRequiredError
  | ReadRequestError
  | NotificationRequestError
  | WriteReadRequestError
deriving DecidableEq, Repr

namespace ESV

/-- The discriminants (src/protocol/esv.rs:22-38), `esv as u8` / `ESV::to_u8` (lines 51-53). -/
def toU8 : ESV → UInt8
  | Unknown => 0x00
  | WriteRequest => 0x60
  | WriteRequestResponseRequired => 0x61
  | ReadRequest => 0x62
  | NotificationRequest => 0x63
  | WriteReadRequest => 0x6E
  | WriteResponse => 0x71
  | ReadResponse => 0x72
  | Notification => 0x73
  | NotificationResponseRequired => 0x74
  | NotificationResponse => 0x7A
  | WriteReadResponse => 0x7E
  | WriteRequestError => 0x50
  | WriteRequestResponseRequiredError => 0x51
  | ReadRequestError => 0x52
  | NotificationRequestError => 0x53
  | WriteReadRequestError => 0x5E

/-- `ESV::iter()` (strum `EnumIter`, src/protocol/esv.rs:20): the variants in source order. -/
def iter : List ESV :=
  [Unknown, WriteRequest, WriteRequestResponseRequired, ReadRequest, NotificationRequest,
   WriteReadRequest, WriteResponse, ReadResponse, Notification, NotificationResponseRequired,
   NotificationResponse, WriteReadResponse, WriteRequestError, WriteRequestResponseRequiredError,
   ReadRequestError, NotificationRequestError, WriteReadRequestError]

/-- `ESV::from_u8` (src/protocol/esv.rs:42-49): first variant whose discriminant matches,
`Unknown` otherwise. -/
def fromU8 (x : UInt8) : ESV :=
  (iter.find? (fun esv => x == esv.toU8)).getD Unknown

/-- `ESV::is_request` (src/protocol/esv.rs:55-65). -/
def isRequest : ESV → Bool
  | WriteRequest | WriteRequestResponseRequired | ReadRequest | NotificationRequest
  | WriteReadRequest | NotificationResponseRequired => true
  | _ => false

/-- `ESV::is_response` (src/protocol/esv.rs:67-81). -/
def isResponse : ESV → Bool
  | WriteResponse | ReadResponse | Notification | NotificationResponse | WriteReadResponse
  | WriteRequestError | WriteRequestResponseRequiredError | ReadRequestError
  | NotificationRequestError | WriteReadRequestError => true
  | _ => false

/-- `ESV::is_error_response` (src/protocol/esv.rs:83-92). -/
def isErrorResponse : ESV → Bool
  | WriteRequestError | WriteRequestResponseRequiredError | ReadRequestError
  | NotificationRequestError | WriteReadRequestError => true
  | _ => false

/-- `ESV::is_notification_response` (src/protocol/esv.rs:94-100). -/
def isNotificationResponse : ESV → Bool
  | Notification | NotificationResponse => true
  | _ => false

/-- `ESV::is_unicast_response` (src/protocol/esv.rs:102-107). -/
def isUnicastResponse (e : ESV) : Bool :=
  if !e.isResponse then false else !e.isNotificationResponse

end ESV
end Uecho
