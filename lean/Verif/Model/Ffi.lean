import Verif.Model.Run
/-
The C interface, `m68000-ffi/src/lib.rs`: the memory callbacks and the copy of the disassembled
string in the caller's buffer.
-/
namespace M68k

/-- m68000-ffi/src/lib.rs L150-159: `m68000_memory_result_t`. -/
structure MemoryResult where
  data : U32
  exception : U8

/-- m68000-ffi/src/lib.rs L168-181: the functions of `m68000_callbacks_t`. A callback gets the state
behind `user_data`, which it may change. -/
structure Callbacks (U : Type) where
  getByte : U32 → U → MemoryResult × U
  getWord : U32 → U → MemoryResult × U
  getLong : U32 → U → MemoryResult × U
  setByte : U32 → U8 → U → MemoryResult × U
  setWord : U32 → U16 → U → MemoryResult × U
  setLong : U32 → U32 → U → MemoryResult × U
  resetInstruction : U → U

/-- m68000-ffi/src/lib.rs L168-181: `m68000_callbacks_t` with the state behind `user_data`. -/
structure FfiMemory (U : Type) where
  cb : Callbacks U
  user : U

/-- The body of the callbacks, e.g. m68000-ffi/src/lib.rs L184-191: `Some(f(data))` when the callback
reports no exception, `None` otherwise. -/
def FfiMemory.result {U α : Type} (m : FfiMemory U) (f : U32 → α) (r : MemoryResult × U) :
    MRes (FfiMemory U) α :=
  if r.1.exception = 0 then .val (f r.1.data) { m with user := r.2 } else .none { m with user := r.2 }

/-- m68000-ffi/src/lib.rs L183-242: `impl MemoryAccess for m68000_callbacks_t`. -/
instance {U : Type} : MemoryAccess (FfiMemory U) where
  getByte addr m := m.result toU8 (m.cb.getByte addr m.user)
  getWord addr m := m.result toU16 (m.cb.getWord addr m.user)
  getLong addr m := m.result id (m.cb.getLong addr m.user)
  setByte addr v m := m.result (fun _ => ()) (m.cb.setByte addr v m.user)
  setWord addr v m := m.result (fun _ => ()) (m.cb.setWord addr v m.user)
  setLong addr v m := m.result (fun _ => ()) (m.cb.setLong addr v m.user)
  resetInstruction m := { m with user := m.cb.resetInstruction m.user }

/-- m68000-ffi/src/lib.rs L347, L349, L377, L379: `copy_from_nonoverlapping(src, n)` into a buffer: `none` when it would write outside of the
buffer or read outside of the source (undefined behaviour). -/
def copyBytes (buf src : List U8) (n : Nat) : Option (List U8) :=
  if n ≤ buf.length ∧ n ≤ src.length then some (src.take n ++ buf.drop n) else none

/-- m68000-ffi/src/lib.rs L350, L380: `*str.add(i) = b`. -/
def pokeByte (buf : List U8) (i : Nat) (b : U8) : Option (List U8) :=
  if i < buf.length then some (buf.set i b) else none

/-- m68000-ffi/src/lib.rs L342-351 and L372-381: the disassembled string `dis` is copied to the
buffer `buf`, with a claimed size of `len`. `none` is a panic (a nul byte in the string, `len - 1`
with `len = 0`) or an access outside of the buffer. -/
def copyDisassembly (buf : List U8) (len : Nat) (dis : List U8) : Option (List U8) :=
  if dis.contains 0 then none
  else
    let cstring := dis ++ [0]
    if cstring.length ≤ len then copyBytes buf cstring cstring.length
    else if len = 0 then none
    else do
      let buf ← copyBytes buf cstring (len - 1)
      pokeByte buf (len - 1) 0

/-- m68000-ffi/src/lib.rs L113-124: `m68000_exception_result_t`. -/
structure ExceptionResult where
  cycles : Nat
  exception : U8

/-- m68000-ffi/src/lib.rs L326-331: the result of `m68000_*_interpreter_exception`; a missing
exception is reported as 0. -/
def ffiException (v : Option U8) : U8 := v.getD 0

/-- m68000-ffi/src/lib.rs L326-331: `m68000_*_interpreter_exception`. -/
def ffiInterpreterException {U : Type} (C : CpuDetails) : Exec (FfiMemory U) ExceptionResult := do
  let (cycles, vector) ← Exec.interpreterException C
  return { cycles := cycles, exception := ffiException vector }

/-- The `match` of m68000-ffi/src/lib.rs L401-410, L418-430 and L437-446: the outcome of a read at the program counter
as a `m68000_memory_result_t`. -/
def ffiRead {U α : Type} (f : α → U32) (x : Exec (FfiMemory U) α) : Exec (FfiMemory U) MemoryResult := fun s =>
  match x s with
  | .ok v s' => .ok { data := f v, exception := 0 } s'
  | .err e s' => .ok { data := 0, exception := e } s'
  | .panic => .panic

/-- m68000-ffi/src/lib.rs L401-414: `m68000_*_get_next_word`. -/
def ffiGetNextWord {U : Type} : Exec (FfiMemory U) MemoryResult := ffiRead (·.setWidth 32) Exec.getNextWord

/-- m68000-ffi/src/lib.rs L418-431: `m68000_*_get_next_long`. -/
def ffiGetNextLong {U : Type} : Exec (FfiMemory U) MemoryResult := ffiRead id Exec.getNextLong

/-- m68000-ffi/src/lib.rs L435-448: `m68000_*_peek_next_word`. -/
def ffiPeekNextWord {U : Type} : Exec (FfiMemory U) MemoryResult := ffiRead (·.setWidth 32) Exec.peekNextWord

end M68k
