import Verif.Packet
import Verif.PacketProps
import Verif.Auth
/-
C146: include/gate.h, the C interface of user programs: the debug output functions, the packet structures and GATE_ALIGN_PACKET.
(gate_io, gate_recv and gate_send are calls of the library's io function: AbiLib.lean.)
-/
namespace Gate.GateH
open Gate Auth

/-! ### Debug output -/

/-- A digit's character, gate.h:122-127 and 142. -/
def digit (m : Nat) : UInt8 := if m < 10 then UInt8.ofNat (48 + m) else UInt8.ofNat (97 + (m - 10))

/-- The loops of __gate_debug_hex (gate.h:115-134) and __gate_debug_uint (gate.h:136-147): `acc` is what has been written to the end of the buffer of `cap` bytes.
None: a write outside of the buffer. The first argument bounds the number of iterations (64-bit numbers need at most 20: by `debug_uint` and `debug_hex` the bound is never met). -/
def loop (base cap : Nat) : Nat → Nat → Bytes → Option Bytes
  | 0, _, _ => none
  | k + 1, n, acc =>
    if acc.length = cap then none
    else
      let acc := digit (n % base) :: acc
      if n / base = 0 then some acc else loop base cap k (n / base) acc

/-- gate.h:136-147. The argument is a uint64_t. What is written. -/
def debugUint (n : Nat) : Option Bytes := loop 10 20 100 n []

/-- gate.h:115-134. -/
def debugHex (n : Nat) : Option Bytes := loop 16 16 100 n []

/-- Signed 64-bit addition: undefined if it overflows. -/
def sadd (a b : Int) : Option Int := if -2 ^ 63 ≤ a + b ∧ a + b < 2 ^ 63 then some (a + b) else none

/-- gate.h:149-163. The argument is an int64_t; `u = ~n + 1` is calculated as int64_t, and then converted. -/
def debugInt (n : Int) : Option Bytes :=
  if n ≥ 0 then debugUint (toUnsigned 64 n)
  else (sadd (-n - 1) 1).bind fun u => (debugUint (toUnsigned 64 u)).map fun b => str "-" ++ b

/-- The same with an addition which wraps around (WebAssembly's i64.add). -/
def debugIntWrap (n : Int) : Option Bytes :=
  if n ≥ 0 then debugUint (toUnsigned 64 n)
  else (debugUint ((toUnsigned 64 (-n - 1) + 1) % 2 ^ 64)).map fun b => str "-" ++ b

/-- gate.h:342-350. -/
def debugPtr (p : Nat) : Option Bytes := (debugHex p).map fun b => str "0x" ++ b

/-- __gate_debug_str, gate.h:105-113: the length is that up to the first zero; memory is everything from the address on. -/
def debugStr : Bytes → Option Bytes
  | [] => none
  | c :: rest => if c = 0 then some [] else (debugStr rest).map (c :: ·)

/-! ### Packets -/

/-- A member of a packed structure: its size, and its name. -/
abbrev Member := String × Nat

/-- gate.h:225-230. -/
def packet : List Member := [("size", 4), ("code", 2), ("domain", 1), ("index", 1)]
/-- gate.h:232-236 (the variable length part is at the end). -/
def serviceNamePacket : List Member := packet ++ [("count", 2)]
/-- gate.h:244-247. -/
def flow : List Member := [("id", 4), ("increment", 4)]
/-- gate.h:254-259. -/
def dataPacket : List Member := packet ++ [("id", 4), ("note", 4)]

def sizeOf : List Member → Nat
  | [] => 0
  | m :: rest => m.2 + sizeOf rest

/-- The offset and size of a member of a packed structure. -/
def offsetOf (name : String) : List Member → Option (Nat × Nat)
  | [] => none
  | m :: rest => if m.1 = name then some (0, m.2) else (offsetOf name rest).map fun o => (m.2 + o.1, o.2)

/-- What a program reads from a member of a structure at an address: the bytes are in memory. -/
def load (s : List Member) (name : String) (b : Bytes) : Res Nat :=
  match offsetOf name s with
  | none => .panic
  | some (o, n) => Packet.getLE b o n

/-- GATE_ALIGN_PACKET, gate.h:184-185: size_t has 32 bits. -/
def alignPacket (size : Nat) : Nat := ((size + 7) % 2 ^ 32) &&& (2 ^ 32 - 1 - 7)

end Gate.GateH
