import Verif.Model.Prog

/-! # Message ids -/

namespace Xcvr

/-- `controller.rs` 185-187 `next_header`: `message_id.fetch_add(1, SeqCst)` on an `AtomicU64` that starts at 0 (line 179)
returns the old value and adds one, wrapping around. Returns the header and the new counter. -/
def nextHeader (counter : U64) (kind : MessageKind) : Header × U64 := (Header.new counter kind, counter + 1)

/-- The requests put on the channel for a sequence of calls, of whatever methods, in the order of their `fetch_add`s. -/
def numberCalls (counter : U64) : List Call → List HostRpcRequest
  | [] => []
  | c :: cs =>
    let (header, counter) := nextHeader counter c.kind
    { header, message := c.message, data := c.data } :: numberCalls counter cs

end Xcvr
