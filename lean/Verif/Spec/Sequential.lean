import Verif.Spec.Servers
/-!
# Specification vocabulary: a transport manager whose calls are single steps (C90)
-/
namespace Uecho.Spec
open Live

/-- The calls begun, in order. -/
def begun (tr : List Ev) : List MOp :=
  tr.filterMap (fun e => match e with | .invoked op => some op | _ => none)

/-- The calls that have returned, in order, with their results. -/
def ended (tr : List Ev) : List (MOp × Bool) :=
  tr.filterMap (fun e => match e with | .returned op r => some (op, r) | _ => none)

/-- One call on a manager whose calls are single steps (`Model/Transport`) and whose threads never panic. -/
def callOn (m : Manager) : MOp → Res (Bool × Manager)
  | .start menv uenv => m.start menv uenv
  | .stop => m.stop
  | .addObserver o => .ok (true, m.addObserver o)

/-- A list of calls, with the list of their results. -/
def callsOnManager (m : Manager) : List MOp → Res (List Bool × Manager)
  | [] => .ok ([], m)
  | op :: ops => do
    let r ← callOn m op
    let r' ← callsOnManager r.2 ops
    pure (r.1 :: r'.1, r'.2)

/-- The sockets of a list of servers: the address of the interface and the registered observers of each. -/
def sockets (l : List Server) : List (IpAddr × List ObserverRef) := l.map (fun s => (s.ifaddr, s.observers))

/-- The same for the servers `l` of the running transport. -/
def liveSockets (σ : St) (l : List Nat) : List (IpAddr × List ObserverRef) :=
  l.filterMap (fun s => (σ.srvs[s]?).map (fun v => (v.addr, v.observers)))

end Uecho.Spec
