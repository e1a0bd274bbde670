import Verif.Spec.System

/-!
# Any number of programs that use the library, and a network between them

The network may lose, duplicate, delay, reorder and misdirect datagrams in any way.  It does not make any up, and it tells the receiver the true address of
the sender.
-/

namespace Pyogp
namespace Spec

/-- A program: configuration and environment of its dispatcher, its `Host` objects at the start, its address. -/
structure Node where
  env : DEnv
  hosts : HostRef → Host
  addr : Addr

/-- The states the dispatchers of these programs can get into together: at any time one of them does something by itself, or receives a datagram that
some program has sent before, as coming from the address of that program. -/
inductive Among {ι : Type} [DecidableEq ι] (node : ι → Node) : (ι → DState) → Prop
  | start : Among node (fun i => DState.init (node i).hosts)
  | own {s : ι → DState} (i : ι) (op : Op) : Among node s → Own op →
      Among node (fun k => if k = i then step (node i).env (s i) op else s k)
  | recv {s : ι → DState} (i j : ι) (r : HostRef) (x : Addr) (dg : Bytes) : Among node s → (x, dg) ∈ sentDatagrams (s j).trace →
      ((s i).hosts r).addr = (node j).addr → Among node (fun k => if k = i then step (node i).env (s i) (.recv r dg) else s k)

/-- The datagrams received from an address / the messages read from them and accepted on its circuit, in order. -/
def receivedFrom (a : Addr) (tr : List Ev) : List Bytes := tr.filterMap fun | .received b dg => if b = a then some dg else none | _ => none
def parsedFrom (a : Addr) (tr : List Ev) : List Message := tr.filterMap fun | .parsed b m => if b = a then some m else none | _ => none

/-- The datagrams sent to an address / the packets prepared for it, in order. -/
def sentTo (a : Addr) (tr : List Ev) : List Bytes := ((sentDatagrams tr).filter (·.1 = a)).map (·.2)
def preparedFor (a : Addr) (tr : List Ev) : List Message := ((preparedMsgs tr).filter (·.1 = a)).map (·.2)

end Spec
end Pyogp
