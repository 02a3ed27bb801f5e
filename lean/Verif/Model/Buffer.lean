import Verif.Model.Basic

/-! # `asdf_buffer.c`: ring buffers carved out of one pool -/

namespace Asdf

/-- `asdf_buffer_t` (asdf_buffer.c:47-53).  The pointer `buf` is the offset of
the first element in `buffer_pool`. -/
structure BufDesc where
  buf : Int
  size : Int
  head : UInt8
  tail : UInt8
  count : UInt8
  deriving DecidableEq, Repr

/-- The static variables of `asdf_buffer.c` (lines 57, 61, 64, 67). -/
structure BufState where
  pool : List Code
  bufs : List BufDesc
  nextAvail : Int
  nextHandle : Int
  deriving DecidableEq, Repr

/-- Static (zero) initialisation of a descriptor (asdf_buffer.c:61). -/
def BufDesc.zero : BufDesc := ⟨0, 0, 0, 0, 0⟩

/-- Static (zero) initialisation (asdf_buffer.c:57-67). -/
def BufState.zero : BufState :=
  { pool := List.replicate POOL_SIZE 0
    bufs := List.replicate NUM_HANDLES BufDesc.zero
    nextAvail := 0
    nextHandle := 0 }

/-- `ASDF_BUFFER_INVALID` (asdf_buffer.h:33). -/
def BUFFER_INVALID : Int := -1

/-- `asdf_buffer_init` (asdf_buffer.c:84-88). -/
def bufInit (b : BufState) : BufState :=
  { b with nextAvail := 0, nextHandle := 0 }

/-- `buffer_handle_valid` (asdf_buffer.c:104-107). -/
def handleValid (b : BufState) (h : Int) : Bool :=
  decide (0 ≤ h) && decide (h < b.nextHandle)

/-- Result range of an `int16_t` (AVR `int`) subtraction or addition.
(Modelling device for signed overflow.) -/
def inInt16 (n : Int) : Bool := decide (-32768 ≤ n) && decide (n ≤ 32767)

/-- `asdf_buffer_new` (asdf_buffer.c:126-144).  The pointer
`&buffer_pool[buffer_pool_next_available]` (line 135) may only be formed inside
the pool or one past its end; anything else is undefined behaviour. -/
def bufNew (b : BufState) (size : Int) : Res (Int × BufState) :=
  if b.nextHandle < NUM_HANDLES then
    let room : Int := POOL_SIZE - b.nextAvail
    if !inInt16 room then .error .overflow
    else if size ≤ room then
      let handle := b.nextHandle
      if 0 ≤ b.nextAvail ∧ b.nextAvail ≤ POOL_SIZE then do
        let bufs ← wrI b.bufs handle
          { buf := b.nextAvail, size := size, head := 0, tail := 0, count := 0 }
        .ok (handle, { b with
          bufs := bufs
          nextHandle := b.nextHandle + 1
          nextAvail := b.nextAvail + size })
      else .error .oob
    else .ok (BUFFER_INVALID, b)
  else .ok (BUFFER_INVALID, b)

/-- `(x + 1) % size` with the C truncating remainder, stored in a `uint8_t`
(asdf_buffer.c:170, 198). -/
def advance (x : UInt8) (size : Int) : Res UInt8 :=
  if size = 0 then .error .divZero
  else .ok (UInt8.ofNat (Int.tmod ((x.toNat : Int) + 1) size).toNat)

/-- `asdf_buffer_put` (asdf_buffer.c:165-174). -/
def bufPut (b : BufState) (h : Int) (code : Code) : Res BufState :=
  if handleValid b h then do
    let d ← rdI b.bufs h
    if (d.count.toNat : Int) < d.size then do
      let pool ← wrI b.pool (d.buf + d.head.toNat) code
      let head ← advance d.head d.size
      let bufs ← wrI b.bufs h { d with head := head, count := d.count + 1 }
      .ok { b with pool := pool, bufs := bufs }
    else .ok b
  else .ok b

/-- `asdf_buffer_get` (asdf_buffer.c:193-202). -/
def bufGet (b : BufState) (h : Int) : Res (Code × BufState) :=
  if handleValid b h then do
    let d ← rdI b.bufs h
    if d.count ≠ 0 then do
      let code ← rdI b.pool (d.buf + d.tail.toNat)
      let tail ← advance d.tail d.size
      let bufs ← wrI b.bufs h { d with tail := tail, count := d.count - 1 }
      .ok (code, { b with bufs := bufs })
    else .ok (INVALID_CODE, b)
  else .ok (INVALID_CODE, b)

end Asdf
