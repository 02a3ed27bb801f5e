import Verif.Model.Buffer

/-! # The unit tests of `test/test_asdf_buffer.c`, run on the model

Checks of the model, not properties: each unit test is replayed call by call.  The
theorems carry the names of the C tests. -/

namespace Asdf.Tests

/-- A step of a test on the buffers; `h` is the handle. -/
inductive BufCall where
  | init
  | new (size : Int)
  | put (h : Int) (c : Code)
  | get (h : Int)

/-- What the calls of a test return: handles and codes, in order. -/
def bufRun : BufState → List BufCall → Res (List Int)
  | _, [] => .ok []
  | b, .init :: l => bufRun (bufInit b) l
  | b, .new n :: l => do
    let (h, b) ← bufNew b n
    let r ← bufRun b l
    .ok (h :: r)
  | b, .put h c :: l => do
    let b ← bufPut b h c
    bufRun b l
  | b, .get h :: l => do
    let (c, b) ← bufGet b h
    let r ← bufRun b l
    .ok ((c.toNat : Int) :: r)

/-- `MAX_BUFFER` (test_asdf_buffer.c:10). -/
def maxBuffer : Nat := 144

/-- `ASDF_INVALID_CODE` (asdf.h:33-36) as a number. -/
def invalid : Int := 0xA0

/-- `setUp` (test_asdf_buffer.c:27-31), then the test; the handle of `setUp` is the
first result. -/
def bufTest (l : List BufCall) : Res (List Int) := bufRun .zero (.init :: .new maxBuffer :: l)

/-- `test_string` (test_asdf_buffer.c:13). -/
def testString : List Code :=
  "abcdefghijklmnopqrstuvwxyz1234567890ABCDEFGHIJKLMNOPQRSTUVWXYZ".toList.map
    fun c => UInt8.ofNat c.toNat

/-- The code a test puts as its `i`-th. -/
def nth (i : Nat) : Code := testString.getD (i % testString.length) 0

theorem allocating_first_buffer_returns_handle_0 : bufTest [] = .ok [0] := by decide +kernel

theorem allocating_second_buffer_returns_handle_1 :
    bufTest [.init, .new (maxBuffer / 2), .new (maxBuffer / 2)] = .ok [0, 0, 1] := by decide +kernel

theorem allocating_too_many_buffers_returns_invalid :
    bufTest (.init :: List.replicate 5 (.new 1)) = .ok [0, 0, 1, 2, 3, BUFFER_INVALID] := by
  decide +kernel

theorem all_handles_are_allocated :
    bufTest (.init :: List.replicate 4 (.new 1) ++ [.new 1]) = .ok [0, 0, 1, 2, 3, BUFFER_INVALID] := by
  decide +kernel

theorem allocating_too_much_space_returns_invalid :
    bufTest [.init, .new (maxBuffer + 1)] = .ok [0, BUFFER_INVALID] := by decide +kernel

theorem get_from_invalid_handle_returns_invalid_code :
    bufTest [.get BUFFER_INVALID] = .ok [0, invalid] := by decide +kernel

theorem get_from_unallocated_handle_returns_invalid_code :
    bufTest [.get (NUM_HANDLES - 1)] = .ok [0, invalid] := by decide +kernel

theorem get_from_empty_queue_returns_error : bufTest [.get 0] = .ok [0, invalid] := by decide +kernel

theorem sending_code_and_retrieve_returns_same_code :
    bufTest [.put 0 0x61, .get 0] = .ok [0, 0x61] := by decide +kernel

/-- The string is sent with its terminating 0 (`sizeof`). -/
theorem adding_and_retrieving_string_one_by_one :
    bufTest ((testString ++ [0]).flatMap fun c => [.put 0 c, .get 0]) =
      .ok (0 :: (testString ++ [0]).map fun (c : Code) => (c.toNat : Int)) := by decide +kernel

theorem fill_buffer_then_retrieve_string :
    bufTest ((List.range maxBuffer).map (fun i => .put 0 (nth i)) ++
        List.replicate (maxBuffer + 1) (.get 0)) =
      .ok (0 :: (List.range maxBuffer).map (fun i => ((nth i).toNat : Int)) ++ [invalid]) := by
  decide +kernel

/-- `random_code` (test_asdf_buffer.c:37-45). -/
def randomCode (seed : UInt8) : UInt8 :=
  if seed &&& 0x80 ≠ 0 then (seed <<< 1) ^^^ 0x88 else seed <<< 1

/-- The pseudo-random codes after `seed`. -/
def randoms : Nat → UInt8 → List UInt8
  | 0, _ => []
  | n + 1, seed => randomCode seed :: randoms n (randomCode seed)

theorem overfilling_buffer_and_retrieve_drops_overflow :
    bufTest ((randoms (2 * maxBuffer) 0x3b).map (.put 0) ++
        List.replicate (maxBuffer + 1) (.get 0)) =
      .ok (0 :: (randoms maxBuffer 0x3b).map (fun c => (c.toNat : Int)) ++ [invalid]) := by
  decide +kernel

/-- `more_strings` (test_asdf_buffer.c:16-23), without the end marker. -/
def moreStrings : List (List Code) :=
  ["abcdefghijkl", "12345", "ABCDEFG", "The quick brown", "We the people"].map
    fun s => s.toList.map fun c => UInt8.ofNat c.toNat

theorem send_get_multiple_strings :
    bufTest (moreStrings.flatMap fun s => s.map (.put 0) ++ List.replicate (s.length + 1) (.get 0)) =
      .ok (0 :: moreStrings.flatMap fun s => s.map (fun c => (c.toNat : Int)) ++ [invalid]) := by
  decide +kernel

end Asdf.Tests
