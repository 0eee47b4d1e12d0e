import Verif.Model.Basic

/-!
# `Memory` (cpp/vm/evmzero/memory.h, memory.cc)

`std::vector<uint8_t>` is a list of bytes.  To make the use of a span after a
reallocation observable, the vector carries a generation counter that changes
with every `resize` (the model assumes the worst case, that every resize
reallocates).  Pointer arithmetic `data() + offset` for an *empty* range is not
treated as an access.
-/

namespace Tosca.Model

/-- `class Memory` (memory.h:28, member memory_ at memory.h:95). -/
structure Memory where
  data : List Byte := []
  gen : Nat := 0

/-- `std::span<uint8_t>` into the memory vector, tagged with the generation it was taken in. -/
structure Span where
  gen : Nat
  off : Nat
  len : Nat

namespace Memory

/-- `GetSize` (memory.h:34). -/
def size (m : Memory) : Nat := m.data.length

/-- `memory_.resize(n)`: keeps a prefix, value-initialises (zeroes) new elements. -/
def resize (m : Memory) (n : Nat) : Memory :=
  { data := m.data.take n ++ List.replicate (n - m.data.length) 0, gen := m.gen + 1 }

/-- Constructor from a byte sequence (memory.cc:17-25). -/
def ofBytes (l : List Byte) : Memory :=
  ({ data := l } : Memory).resize ((((l.length + 31) % u64Mod) / 32) * 32)

/-- `Grow` (memory.h:80-87); `offset + size` and `new_size + 31` are `uint64_t` additions. -/
def grow (m : Memory) (offset sz : Nat) : Memory :=
  if sz ≠ 0 then
    let newSize := (offset + sz) % u64Mod
    if newSize > m.size then m.resize ((((newSize + 31) % u64Mod) / 32) * 32) else m
  else m

/-- `GetSpan` (memory.h:38-41). -/
def getSpan (m : Memory) (offset sz : Nat) : Span × Memory :=
  let m' := m.grow offset sz
  ({ gen := m'.gen, off := offset, len := sz }, m')

/-- Reading `len` bytes at `off` through a pointer into the vector. -/
def readAt (m : Memory) (off len : Nat) : M (List Byte) :=
  if len = 0 then .ok []
  else if off + len ≤ m.size then .ok ((m.data.drop off).take len)
  else .error .memoryOutOfBounds

/-- Writing `buf` at `off` through a pointer into the vector. -/
def writeAt (m : Memory) (off : Nat) (buf : List Byte) : M Memory :=
  if buf.length = 0 then .ok m
  else if off + buf.length ≤ m.size then
    .ok { m with data := m.data.take off ++ buf ++ m.data.drop (off + buf.length) }
  else .error .memoryOutOfBounds

/-- Reading the bytes a span denotes; dangling if the vector was resized since. -/
def readSpan (m : Memory) (s : Span) : M (List Byte) :=
  if s.len = 0 then .ok []
  else if s.gen = m.gen then m.readAt s.off s.len
  else .error .danglingSpan

/-- Writing `buf` to the start of a span. -/
def writeSpan (m : Memory) (s : Span) (buf : List Byte) : M Memory :=
  if buf.length = 0 then .ok m
  else if s.gen ≠ m.gen then .error .danglingSpan
  else if s.len < buf.length then .error .hostBufferOverflow
  else m.writeAt s.off buf

/-- `ReadFrom` (memory.h:45-48). -/
def readFrom (m : Memory) (buffer : List Byte) (offset : Nat) : M Memory :=
  (m.grow offset buffer.length).writeAt offset buffer

/-- `ReadFromWithSize` (memory.h:54-61). -/
def readFromWithSize (m : Memory) (buffer : List Byte) (offset writeSize : Nat) : M Memory := do
  let m := m.grow offset writeSize
  let n := min buffer.length writeSize
  let m ← m.writeAt offset (buffer.take n)
  m.writeAt (offset + n) (List.replicate (writeSize - n) 0)

/-- `WriteTo` (memory.h:65-68) with a buffer of `n` bytes: the bytes put into the buffer. -/
def writeTo (m : Memory) (n offset : Nat) : M (List Byte × Memory) := do
  let m := m.grow offset n
  let bytes ← m.readAt offset n
  pure (bytes, m)

/-- `MemCopy` (memory.h:71-76); `memmove` reads the source completely before writing. -/
def memCopy (m : Memory) (dest src sz : Nat) : M Memory := do
  let m := m.grow src sz
  let m := m.grow dest sz
  let bytes ← m.readAt src sz
  m.writeAt dest bytes

end Memory

end Tosca.Model
