import Verif.Model.Prim
import Verif.Model.Bitfield

/-!
# `controller/src/config.rs`, and the start of a controller in `controller/src/controller.rs`

An IPv6 address is its 128-bit number, a duration its number of nanoseconds.
-/

namespace Xcvr

namespace Config

abbrev Ipv6 := BitVec 128

/-- `Ipv6Addr::from([u16; 8])`: the segments in network order. -/
def ipOf (a b c d e f g h : U16) : Ipv6 := a ++ b ++ c ++ d ++ e ++ f ++ g ++ h

/-- `Ipv6Addr::segments`. -/
def segments (ip : Ipv6) : List U16 := [7, 6, 5, 4, 3, 2, 1, 0].map fun i => ip.extractLsb' (16 * i) 16

/-- `messages/src/lib.rs` 167 `ADDR`. -/
def protocolAddr : Ipv6 := ipOf 0xff02 0 0 0 0 0 0x1de 2

/-- `messages/src/lib.rs` 158 `PORT`. -/
def protocolPort : U16 := 11112

/-- `config.rs` 16-18 `default_retry_interval`: one second. -/
def defaultRetryInterval : Nat := 1000000000

/-- `nix::sys::socket::SockaddrStorage`, as far as `as_sockaddr_in6` tells apart. -/
inductive SockAddr where
  | in6 (ip : Ipv6)
  | other
  deriving DecidableEq

/-- `as_sockaddr_in6().map(|x| x.ip())`. -/
def SockAddr.ip6 : SockAddr → Option Ipv6
  | .in6 ip => some ip
  | .other => none

/-- `nix::ifaddrs::InterfaceAddress`: one entry for each address of an interface. -/
structure InterfaceAddress where
  name : List Char
  address : Option SockAddr
  deriving DecidableEq

/-- The parts of `Error` used here. -/
inductive StartError where
  | badInterface (name : List Char)
  | io
  deriving DecidableEq

/-- `config.rs` 34-65 `Config`. -/
structure Cfg where
  address : Ipv6
  port : U16
  interface : List Char
  peer : Ipv6
  peerPort : U16
  retryInterval : Nat
  nRetries : Option Nat
  deriving DecidableEq

/-- `config.rs` 68-70 `is_link_local`. -/
def isLinkLocal (ip : Ipv6) : Bool := (segments ip).take 4 == [0xfe80, 0, 0, 0]

/-- `config.rs` 74-87 `first_valid_address`. -/
def firstValidAddress (name : List Char) (iface : InterfaceAddress) : Option Ipv6 :=
  if name = iface.name then
    match iface.address.bind SockAddr.ip6 with
    | none => none
    | some ip => if isLinkLocal ip then some ip else none
  else none

/-- `config.rs` 90-105 `is_valid_address`; `none` means that `getifaddrs` failed. -/
def isValidAddress (interfaces : Option (List InterfaceAddress)) (name : List Char) (addr : Ipv6) : Bool :=
  match interfaces with
  | none => false
  | some ifs =>
    (ifs.findSome? fun iface =>
      if iface.name = name then iface.address.bind fun s => s.ip6.map fun ip => ip == addr else none).getD false

/-- `config.rs` 110-116 `find_interface_link_local_addr`. -/
def findInterfaceLinkLocalAddr (interfaces : Option (List InterfaceAddress)) (name : List Char) :
    Except StartError Ipv6 :=
  match interfaces with
  | none => .error (.badInterface name)
  | some ifs =>
    match ifs.findSome? (firstValidAddress name) with
    | some ip => .ok ip
    | none => .error (.badInterface name)

/-- `config.rs` 119-128 `ConfigBuilder`. -/
structure Builder where
  interface : List Char
  address : Option Ipv6 := none
  port : Option U16 := none
  peer : Option Ipv6 := none
  peerPort : Option U16 := none
  retryInterval : Option Nat := none
  nRetries : Option Nat := none
  deriving DecidableEq

/-- `config.rs` 140-174: the setters. -/
inductive Setting where
  | address (ip : Ipv6)
  | port (p : U16)
  | peer (ip : Ipv6)
  | peerPort (p : U16)
  | retryInterval (d : Nat)
  | nRetries (n : Nat)
  deriving DecidableEq

/-- `config.rs` 140-174: calling a setter. -/
def Builder.set (b : Builder) : Setting → Builder
  | .address ip => { b with address := some ip }
  | .port p => { b with port := some p }
  | .peer ip => { b with peer := some ip }
  | .peerPort p => { b with peerPort := some p }
  | .retryInterval d => { b with retryInterval := some d }
  | .nRetries n => { b with nRetries := some n }

/-- `config.rs` 178-187: the address. -/
def Builder.chooseAddress (interfaces : Option (List InterfaceAddress)) (b : Builder) : Except StartError Ipv6 :=
  match b.address with
  | none => findInterfaceLinkLocalAddr interfaces b.interface
  | some a => if isValidAddress interfaces b.interface a then .ok a else .error (.badInterface b.interface)

/-- `config.rs` 177-197 `build`. -/
def Builder.build (interfaces : Option (List InterfaceAddress)) (b : Builder) : Except StartError Cfg := do
  let address ← b.chooseAddress interfaces
  return { interface := b.interface, address
           port := b.port.getD protocolPort
           peer := b.peer.getD protocolAddr
           peerPort := b.peerPort.getD protocolPort
           retryInterval := b.retryInterval.getD defaultRetryInterval
           nRetries := b.nRetries }

/-- `SocketAddrV6` with flow information 0. -/
structure SocketAddr where
  ip : Ipv6
  port : U16
  scope : U32
  deriving DecidableEq

/-- What starting a controller asks of the operating system. -/
structure Os where
  /-- `if_nametoindex`. -/
  index : List Char → Option U32
  /-- `UdpSocket::bind`. -/
  bind : SocketAddr → Bool
  /-- `join_multicast_v6` and `set_multicast_loop_v6`. -/
  join : Ipv6 → U32 → Bool

/-- The sockets of a started controller, and the parameters of its loop. -/
structure Started where
  localAddr : SocketAddr
  group : Ipv6 × U32
  peerAddr : SocketAddr
  nRetries : Option Nat
  retryInterval : Nat
  deriving DecidableEq

/-- `controller.rs` 111-182 `Controller::new` and `ioloop.rs` 69-91 `IoLoop::new`: `tokio::time::interval` panics if the
period is zero. -/
def start (os : Os) (c : Cfg) : Exec StartError Started :=
  match os.index c.interface with
  | none => .err (.badInterface c.interface)
  | some iface =>
    let localAddr : SocketAddr := ⟨c.address, c.port, iface⟩
    if os.bind localAddr then
      if os.join protocolAddr iface then
        if c.retryInterval = 0 then .panic
        else .ok ⟨localAddr, (protocolAddr, iface), ⟨c.peer, c.peerPort, iface⟩, c.nRetries, c.retryInterval⟩
      else .err .io
    else .err .io

/-- The options of `xcvradm.rs` 146-187 that make up its configuration; the parser bounds the retry interval, which is in
milliseconds, by 1 and 10000. -/
structure ToolArgs where
  address : Ipv6
  interface : List Char
  port : U16
  peer : Option Ipv6
  peerPort : U16
  nRetries : Option Nat
  retryInterval : Nat
  bounds : 1 ≤ retryInterval ∧ retryInterval ≤ 10000

/-- `xcvradm.rs` 897-907. -/
def toolConfig (a : ToolArgs) : Cfg :=
  { address := a.address, interface := a.interface, port := a.port, peer := a.peer.getD protocolAddr
    peerPort := a.peerPort, nRetries := a.nRetries, retryInterval := a.retryInterval * 1000000 }

end Config

end Xcvr
