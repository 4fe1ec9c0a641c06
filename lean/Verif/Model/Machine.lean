import Verif.Model.Basic

/-
msat/hrit/MSG_machine.cpp, msat/openmtp/OpenMTP_machine.cpp, msat/omtp-ids/ByteSex.cc:
byte order.
-/
namespace Msat.Machine

/-- Byte order of the host. -/
inductive Host where
  | little
  | big
deriving DecidableEq, Repr

/-- Loading an unsigned integer object from its bytes in host memory, i.e. `*((uint_n *) p)`. -/
def load : Host → Bytes → Nat
  | .little, [] => 0
  | .little, b :: bs => b.toNat + 256 * load .little bs
  | .big, [] => 0
  | .big, b :: bs => b.toNat * 256 ^ bs.length + load .big bs

/-- Loading a signed integer of `w` bits (two's complement), `*((int_n *) p)`. -/
def loadS (h : Host) (w : Nat) (bs : Bytes) : Int :=
  if load h bs < 2 ^ (w - 1) then (load h bs : Int) else (load h bs : Int) - 2 ^ w

/-- msat/hrit/MSG_machine.cpp:35-47 `check_endianess`: the value stored in `isbig`. -/
def checkEndianess (h : Host) : Bool := load h [0, 0, 0, 1] == 1

/-- msat/hrit/MSG_machine.cpp:54-57 `get_i1` (`char` is signed on the modelled platform). -/
def getI1 (h : Host) (b0 : UInt8) : Int := loadS h 8 [b0]

/-- msat/hrit/MSG_machine.cpp:59-66 `get_i2` -/
def getI2 (h : Host) (isbig : Bool) (b0 b1 : UInt8) : Int :=
  if isbig then loadS h 16 [b0, b1] else loadS h 16 [b1, b0]

/-- msat/hrit/MSG_machine.cpp:68-77 `get_i4`; also msat/openmtp/OpenMTP_machine.cpp:59-70 `int4` -/
def getI4 (h : Host) (isbig : Bool) (b0 b1 b2 b3 : UInt8) : Int :=
  if isbig then loadS h 32 [b0, b1, b2, b3] else loadS h 32 [b3, b2, b1, b0]

/-- msat/hrit/MSG_machine.cpp:79-92 `get_i8` -/
def getI8 (h : Host) (isbig : Bool) (b0 b1 b2 b3 b4 b5 b6 b7 : UInt8) : Int :=
  if isbig then loadS h 64 [b0, b1, b2, b3, b4, b5, b6, b7]
  else loadS h 64 [b7, b6, b5, b4, b3, b2, b1, b0]

/-- msat/hrit/MSG_machine.cpp:94-97 `get_ui1` -/
def getUI1 (h : Host) (b0 : UInt8) : Nat := load h [b0]

/-- msat/hrit/MSG_machine.cpp:99-106 `get_ui2` -/
def getUI2 (h : Host) (isbig : Bool) (b0 b1 : UInt8) : Nat :=
  if isbig then load h [b0, b1] else load h [b1, b0]

/-- msat/hrit/MSG_machine.cpp:108-117 `get_ui4` -/
def getUI4 (h : Host) (isbig : Bool) (b0 b1 b2 b3 : UInt8) : Nat :=
  if isbig then load h [b0, b1, b2, b3] else load h [b3, b2, b1, b0]

/-- msat/hrit/MSG_machine.cpp:119-132 `get_ui8` -/
def getUI8 (h : Host) (isbig : Bool) (b0 b1 b2 b3 b4 b5 b6 b7 : UInt8) : Nat :=
  if isbig then load h [b0, b1, b2, b3, b4, b5, b6, b7]
  else load h [b7, b6, b5, b4, b3, b2, b1, b0]

/-- msat/hrit/MSG_machine.cpp:134-143 `get_r4`: bit pattern of the IEEE single (the value of the
pattern as a real number is not interpreted). -/
def getR4 (h : Host) (isbig : Bool) (b0 b1 b2 b3 : UInt8) : BitVec 32 :=
  BitVec.ofNat 32 (if isbig then load h [b0, b1, b2, b3] else load h [b3, b2, b1, b0])

/-- msat/hrit/MSG_machine.cpp:145-158 `get_r8`: bit pattern of the IEEE double. -/
def getR8 (h : Host) (isbig : Bool) (b0 b1 b2 b3 b4 b5 b6 b7 : UInt8) : BitVec 64 :=
  BitVec.ofNat 64 (if isbig then load h [b0, b1, b2, b3, b4, b5, b6, b7]
    else load h [b7, b6, b5, b4, b3, b2, b1, b0])

/-! ### Decoders on a buffer, for the (little-endian) host with `isbig` as `check_endianess`
leaves it.  Each is undefined behaviour when the bytes are not in the buffer. -/

/-- `get_ui1(buff+off)` msat/hrit/MSG_machine.cpp:94-97 -/
def ui1 (buf : Bytes) (off : Nat) : Outcome Nat :=
  match buf.drop off with
  | b0 :: _ => .ok (getUI1 .little b0)
  | _ => .ub

/-- `get_ui2(buff+off)` msat/hrit/MSG_machine.cpp:99-106 -/
def ui2 (buf : Bytes) (off : Nat) : Outcome Nat :=
  match buf.drop off with
  | b0 :: b1 :: _ => .ok (getUI2 .little false b0 b1)
  | _ => .ub

/-- `get_ui4(buff+off)` msat/hrit/MSG_machine.cpp:108-117 -/
def ui4 (buf : Bytes) (off : Nat) : Outcome Nat :=
  match buf.drop off with
  | b0 :: b1 :: b2 :: b3 :: _ => .ok (getUI4 .little false b0 b1 b2 b3)
  | _ => .ub

/-- `get_ui8(buff+off)` msat/hrit/MSG_machine.cpp:119-132 -/
def ui8 (buf : Bytes) (off : Nat) : Outcome Nat :=
  match buf.drop off with
  | b0 :: b1 :: b2 :: b3 :: b4 :: b5 :: b6 :: b7 :: _ =>
      .ok (getUI8 .little false b0 b1 b2 b3 b4 b5 b6 b7)
  | _ => .ub

/-- `get_i2(buff+off)` msat/hrit/MSG_machine.cpp:59-66 -/
def i2 (buf : Bytes) (off : Nat) : Outcome Int :=
  match buf.drop off with
  | b0 :: b1 :: _ => .ok (getI2 .little false b0 b1)
  | _ => .ub

/-- `get_i4(buff+off)` msat/hrit/MSG_machine.cpp:68-77 -/
def i4 (buf : Bytes) (off : Nat) : Outcome Int :=
  match buf.drop off with
  | b0 :: b1 :: b2 :: b3 :: _ => .ok (getI4 .little false b0 b1 b2 b3)
  | _ => .ub

/-- Result of `is.get()` as an `int`: the next byte, or -1 (EOF) with the stream unchanged. -/
def sget : Bytes → Int × Bytes
  | [] => (-1, [])
  | b :: bs => (b.toNat, bs)

/-- msat/omtp-ids/ByteSex.cc:45-60 `big::read2` with bytes = 2.  `u16 |= (uint16_t)get() << 8;
u16 |= get()` (the `<<` is done in `int`, the `|=` truncates to 16 bits). -/
def bsBigRead2 (s : Bytes) : Nat × Bytes :=
  let (c0, s) := sget s
  let (c1, s) := sget s
  let u : BitVec 16 := (BitVec.ofInt 16 c0) <<< 8
  ((u ||| BitVec.ofInt 16 c1).toNat, s)

/-- msat/omtp-ids/ByteSex.cc:64-79 `big::read4` with bytes = 4. -/
def bsBigRead4 (s : Bytes) : Nat × Bytes :=
  let (c0, s) := sget s
  let (c1, s) := sget s
  let (c2, s) := sget s
  let (c3, s) := sget s
  (((BitVec.ofInt 32 c0) <<< 24 ||| (BitVec.ofInt 32 c1) <<< 16 ||| (BitVec.ofInt 32 c2) <<< 8
    ||| BitVec.ofInt 32 c3).toNat, s)

/-- msat/omtp-ids/ByteSex.cc:108-120 `big::write2` with bytes = 2; the argument is converted to
`uint16_t` at the call. -/
def bsBigWrite2 (v : Int) : Bytes :=
  let u := BitVec.ofInt 16 v
  [UInt8.ofNat ((u >>> 8) &&& 0xFF#16).toNat, UInt8.ofNat (u &&& 0xFF#16).toNat]

/-- msat/omtp-ids/ByteSex.cc:124-138 `big::write4` with bytes = 4. -/
def bsBigWrite4 (v : Int) : Bytes :=
  let u := BitVec.ofInt 32 v
  [UInt8.ofNat ((u >>> 24) &&& 0xFF#32).toNat, UInt8.ofNat ((u >>> 16) &&& 0xFF#32).toNat,
   UInt8.ofNat ((u >>> 8) &&& 0xFF#32).toNat, UInt8.ofNat (u &&& 0xFF#32).toNat]

/-- msat/omtp-ids/ByteSex.cc:166-180 `little::read2` with bytes = 2. -/
def bsLittleRead2 (s : Bytes) : Nat × Bytes :=
  let (c0, s) := sget s
  let (c1, s) := sget s
  ((BitVec.ofInt 16 c0 ||| (BitVec.ofInt 16 c1) <<< 8).toNat, s)

/-- msat/omtp-ids/ByteSex.cc:230-243 `little::write2` with bytes = 2. -/
def bsLittleWrite2 (v : Int) : Bytes :=
  let u := BitVec.ofInt 16 v
  [UInt8.ofNat (u &&& 0xFF#16).toNat, UInt8.ofNat ((u >>> 8) &&& 0xFF#16).toNat]

/-- msat/omtp-ids/ByteSex.cc:184-200 `little::read4` with bytes = 4. -/
def bsLittleRead4 (s : Bytes) : Nat × Bytes :=
  let (c0, s) := sget s
  let (c1, s) := sget s
  let (c2, s) := sget s
  let (c3, s) := sget s
  ((BitVec.ofInt 32 c0 ||| (BitVec.ofInt 32 c1) <<< 8 ||| (BitVec.ofInt 32 c2) <<< 16
    ||| (BitVec.ofInt 32 c3) <<< 24).toNat, s)

/-- msat/omtp-ids/ByteSex.cc:247-262 `little::write4` with bytes = 4. -/
def bsLittleWrite4 (v : Int) : Bytes :=
  let u := BitVec.ofInt 32 v
  [UInt8.ofNat (u &&& 0xFF#32).toNat, UInt8.ofNat ((u >>> 8) &&& 0xFF#32).toNat,
   UInt8.ofNat ((u >>> 16) &&& 0xFF#32).toNat, UInt8.ofNat ((u >>> 24) &&& 0xFF#32).toNat]

end Msat.Machine
