import Verif.Model.Object

/-!
# The storage primitives and the records written with them (src/internal.c:995-1442)

A file is its bytes.  Writing appends to the file (files are opened with mode "w",
so it is empty at first); reading consumes from the front.  Simplification: a write
never fails, and a read fails only when the file is too short.
-/

namespace Verif

/-- A reader: from the rest of the file to a value and the rest after it, or failure
(`BUFFER_E`, `MEMORY_E`). -/
abbrev Rd (α : Type) := Bytes → Option (α × Bytes)

namespace Rd

/-- Run one reader after the other, stopping at the first failure (the chains of
`if (ret == 0)` in src/internal.c:2575-2642). -/
def bind {α β : Type} (r : Rd α) (f : α → Rd β) : Rd β := fun b =>
  match r b with
  | none => none
  | some (v, rest) => f v rest

/-- Nothing more to read. -/
def pure {α : Type} (v : α) : Rd α := fun b => some (v, b)

instance : Monad Rd where
  pure := Rd.pure
  bind := Rd.bind

/-- `wp11_storage_read` (src/internal.c:1018-1040), also
`wp11_storage_read_fixed_array`, `wp11_storage_read_string` (src/internal.c:1300-1304,
1421-1424): exactly `n` bytes. -/
def fixed (n : Nat) : Rd Bytes := fun b =>
  if n ≤ b.length then some (b.take n, b.drop n) else none

/-- `wp11_storage_read_boolean` (src/internal.c:1082-1085). -/
def byte : Rd UInt8 := fun b =>
  match b with
  | [] => none
  | v :: rest => some (v, rest)

/-- `wp11_storage_read_ulong` (src/internal.c:1210-1229). -/
def ulong : Rd Nat := fun b =>
  match fixed 8 b with
  | none => none
  | some (v, rest) => some (ofBytes v, rest)

/-- `wp11_storage_read_word32` (src/internal.c:1159-1176). -/
def word32 : Rd (BitVec 32) := fun b =>
  match fixed 4 b with
  | none => none
  | some (v, rest) => some (BitVec.ofNat 32 (ofBytes v), rest)

/-- `wp11_storage_read_int` (src/internal.c:1108-1126); the shift of a negative `int`
is taken to be two's complement. -/
def int : Rd Int := fun b =>
  match fixed 4 b with
  | none => none
  | some (v, rest) => some ((BitVec.ofNat 32 (ofBytes v)).toInt, rest)

/-- `wp11_storage_read_time` (src/internal.c:1260-1279), `time_t` of 64 bits. -/
def time : Rd Int := fun b =>
  match fixed 8 b with
  | none => none
  | some (v, rest) => some ((BitVec.ofNat 64 (ofBytes v)).toInt, rest)

/-- `wp11_storage_read_array` (src/internal.c:1332-1348): the length as `word32`, at
most `max`, then the bytes. -/
def array (max : Nat) : Rd Bytes := do
  let len ← word32
  if len.toNat > max then (fun _ => none) else fixed len.toNat

/-- `wp11_storage_read_alloc_array` (src/internal.c:1385-1410): the length as `int`,
then the bytes.  A negative length makes the allocation fail. -/
def allocArray : Rd Bytes := do
  let len ← int
  if len < 0 then (fun _ => none) else fixed len.toNat

end Rd

/-- `wp11_storage_write_ulong` (src/internal.c:1239-1251). -/
def wrUlong (v : Nat) : Bytes := beBytes 8 v

/-- `wp11_storage_write_word32` (src/internal.c:1186-1198). -/
def wrWord32 (v : BitVec 32) : Bytes := beBytes 4 v.toNat

/-- `wp11_storage_write_int` (src/internal.c:1136-1148). -/
def wrInt (v : Int) : Bytes := beBytes 4 (BitVec.ofInt 32 v).toNat

/-- `wp11_storage_write_time` (src/internal.c:1289-1301). -/
def wrTime (v : Int) : Bytes := beBytes 8 (BitVec.ofInt 64 v).toNat

/-- `wp11_storage_write_boolean` (src/internal.c:1095-1098). -/
def wrBool (v : Bool) : Bytes := [if v then 1 else 0]

/-- `wp11_storage_write_array` (src/internal.c:1359-1373): the length (an `int` turned
into a `word32`) and the bytes. -/
def wrArray (v : Bytes) : Bytes := wrWord32 (BitVec.ofNat 32 v.length) ++ v

/-- What `wp11_Object_Store` writes to the object's file (src/internal.c:2695-2748).
The dates and the IV are written as arrays of 8 and 12 bytes. -/
def wrObject (o : Obj) : Bytes :=
  o.iv ++ wrUlong o.handle ++ wrUlong o.cls ++ wrUlong o.keyGenMech ++
  wrBool o.onToken ++ wrBool o.local' ++ wrWord32 o.flag ++ wrWord32 o.opFlag ++
  o.startDate ++ o.endDate ++ wrArray o.keyId ++ wrArray o.label

/-- What `wp11_Object_Load` reads from the object's file into the object `o`
(src/internal.c:2575-2642). -/
def rdObject (o : Obj) : Rd Obj := do
  let iv ← Rd.fixed 12
  let handle ← Rd.ulong
  let cls ← Rd.ulong
  let keyGenMech ← Rd.ulong
  let onToken ← Rd.byte
  let local' ← Rd.byte
  let flag ← Rd.word32
  let opFlag ← Rd.word32
  let startDate ← Rd.fixed 8
  let endDate ← Rd.fixed 8
  let keyId ← Rd.allocArray
  let label ← Rd.allocArray
  return { o with iv, handle, cls, keyGenMech, onToken := onToken != 0, local' := local' != 0,
                  flag, opFlag, startDate, endDate, keyId, label }

/-- One account of the token (the security officer's or the user's fields of
`WP11_Token`, src/internal.c:308-319): the PIN's hash and its length field (0 when no
PIN is set), the seed, the count of failed logins, the time of the last failed login and
the timeout. The array `pin[32]` and the length are one byte string here: its first
`pinLen` bytes. -/
structure Account where
  pin : Bytes := []
  seed : Bytes := List.replicate 16 0
  fails : Int := 0
  last : Int := 0
  timeout : Int := 0
  deriving DecidableEq, Repr

/-- What is written for one account (src/internal.c:3172-3222). -/
def wrAccount (a : Account) : Bytes :=
  wrArray a.pin ++ a.seed ++ wrInt a.fails ++ wrTime a.last ++ wrTime a.timeout

/-- What is read for one account (src/internal.c:3045-3091); `PIN_HASH_SZ` is 32,
`PIN_SEED_SZ` 16. -/
def rdAccount : Rd Account := do
  let pin ← Rd.array 32
  let seed ← Rd.fixed 16
  let fails ← Rd.int
  let last ← Rd.time
  let timeout ← Rd.time
  return { pin, seed, fails, last, timeout }

/-- The contents of a token's file: label, accounts, seed of the storage key and the
types of the objects from the head of the list on. -/
structure TokenRec where
  label : Bytes
  so : Account
  user : Account
  seed : Bytes
  types : List Nat
  deriving DecidableEq, Repr

/-- What `wp11_Token_Store` writes to the token's file (src/internal.c:3168-3229). -/
def wrToken (t : TokenRec) : Bytes :=
  t.label ++ wrAccount t.so ++ wrAccount t.user ++ t.seed ++
  wrInt t.types.length ++ (t.types.map wrUlong).flatten

/-- The loop reading the types (src/internal.c:3101-3118). -/
def rdTypes : Nat → Rd (List Nat)
  | 0 => Rd.pure []
  | n + 1 => do
    let t ← Rd.ulong
    let ts ← rdTypes n
    return t :: ts

/-- What `wp11_Token_Load` reads from the token's file (src/internal.c:3040-3118);
`LABEL_SZ` is 32.  A count below zero means no object. -/
def rdToken : Rd TokenRec := do
  let label ← Rd.fixed 32
  let so ← rdAccount
  let user ← rdAccount
  let seed ← Rd.fixed 16
  let cnt ← Rd.int
  let types ← rdTypes cnt.toNat
  return { label, so, user, seed, types }

end Verif
