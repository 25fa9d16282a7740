/- Actions of histories that are steps of handlers and futures. -/
import Verif.Sem.RpcSystem
namespace TPB.Rust

/-- Actions that are a step of a handler or of a future. -/
def Act.IsStep : Act → Prop
  | .stepH => True
  | .stepT _ => True
  | _ => False

end TPB.Rust

namespace TPB.Rpc

def SysAct.IsStep : SysAct → Prop
  | .server a => a.IsStep
  | _ => False

end TPB.Rpc
