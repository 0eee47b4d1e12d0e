import Verif.Model.Basic

/-!
# Keccak-256 of the long-form EVM

go/interpreter/lfvm: keccak.h, keccak.go.  Machines are little-endian (`to_le64` is the identity).
-/

namespace Tosca.Model.Lfvm.Keccak

/-- `rol` (keccak.h:78-80). -/
def rol (x : BitVec 64) (s : Nat) : BitVec 64 := (x <<< s) ||| (x >>> (64 - s))

/-- `round_constants` (keccak.h:82-90). -/
def roundConstants : List (BitVec 64) := [
  0x0000000000000001, 0x0000000000008082, 0x800000000000808a, 0x8000000080008000,
  0x000000000000808b, 0x0000000080000001, 0x8000000080008081, 0x8000000000008009,
  0x000000000000008a, 0x0000000000000088, 0x0000000080008009, 0x000000008000000a,
  0x000000008000808b, 0x800000000000008b, 0x8000000000008089, 0x8000000000008003,
  0x8000000000008002, 0x8000000000000080, 0x000000000000800a, 0x800000008000000a,
  0x8000000080008081, 0x8000000000008080, 0x0000000080000001, 0x8000000080008008]

/-- The local variables `Aba` ... `Asu` (keccak.h:107-111). -/
structure Lanes where
  (ba be bi bo bu : BitVec 64)
  (ga ge gi go gu : BitVec 64)
  (ka ke ki ko ku : BitVec 64)
  (ma me mi mo mu : BitVec 64)
  (sa se si so su : BitVec 64)

/-- Round `n + 0` (keccak.h:150-218): `Axx` to `Exx`. -/
def round0 (s : Lanes) (rc : BitVec 64) : Lanes :=
  let Ba := s.ba ^^^ s.ga ^^^ s.ka ^^^ s.ma ^^^ s.sa
  let Be := s.be ^^^ s.ge ^^^ s.ke ^^^ s.me ^^^ s.se
  let Bi := s.bi ^^^ s.gi ^^^ s.ki ^^^ s.mi ^^^ s.si
  let Bo := s.bo ^^^ s.go ^^^ s.ko ^^^ s.mo ^^^ s.so
  let Bu := s.bu ^^^ s.gu ^^^ s.ku ^^^ s.mu ^^^ s.su
  let Da := Bu ^^^ (rol (Be) 1)
  let De := Ba ^^^ (rol (Bi) 1)
  let Di := Be ^^^ (rol (Bo) 1)
  let Do := Bi ^^^ (rol (Bu) 1)
  let Du := Bo ^^^ (rol (Ba) 1)
  let Ba := s.ba ^^^ Da
  let Be := (rol (s.ge ^^^ De) 44)
  let Bi := (rol (s.ki ^^^ Di) 43)
  let Bo := (rol (s.mo ^^^ Do) 21)
  let Bu := (rol (s.su ^^^ Du) 14)
  let nba := Ba ^^^ (~~~Be &&& Bi) ^^^ rc
  let nbe := Be ^^^ (~~~Bi &&& Bo)
  let nbi := Bi ^^^ (~~~Bo &&& Bu)
  let nbo := Bo ^^^ (~~~Bu &&& Ba)
  let nbu := Bu ^^^ (~~~Ba &&& Be)
  let Ba := (rol (s.bo ^^^ Do) 28)
  let Be := (rol (s.gu ^^^ Du) 20)
  let Bi := (rol (s.ka ^^^ Da) 3)
  let Bo := (rol (s.me ^^^ De) 45)
  let Bu := (rol (s.si ^^^ Di) 61)
  let nga := Ba ^^^ (~~~Be &&& Bi)
  let nge := Be ^^^ (~~~Bi &&& Bo)
  let ngi := Bi ^^^ (~~~Bo &&& Bu)
  let ngo := Bo ^^^ (~~~Bu &&& Ba)
  let ngu := Bu ^^^ (~~~Ba &&& Be)
  let Ba := (rol (s.be ^^^ De) 1)
  let Be := (rol (s.gi ^^^ Di) 6)
  let Bi := (rol (s.ko ^^^ Do) 25)
  let Bo := (rol (s.mu ^^^ Du) 8)
  let Bu := (rol (s.sa ^^^ Da) 18)
  let nka := Ba ^^^ (~~~Be &&& Bi)
  let nke := Be ^^^ (~~~Bi &&& Bo)
  let nki := Bi ^^^ (~~~Bo &&& Bu)
  let nko := Bo ^^^ (~~~Bu &&& Ba)
  let nku := Bu ^^^ (~~~Ba &&& Be)
  let Ba := (rol (s.bu ^^^ Du) 27)
  let Be := (rol (s.ga ^^^ Da) 36)
  let Bi := (rol (s.ke ^^^ De) 10)
  let Bo := (rol (s.mi ^^^ Di) 15)
  let Bu := (rol (s.so ^^^ Do) 56)
  let nma := Ba ^^^ (~~~Be &&& Bi)
  let nme := Be ^^^ (~~~Bi &&& Bo)
  let nmi := Bi ^^^ (~~~Bo &&& Bu)
  let nmo := Bo ^^^ (~~~Bu &&& Ba)
  let nmu := Bu ^^^ (~~~Ba &&& Be)
  let Ba := (rol (s.bi ^^^ Di) 62)
  let Be := (rol (s.go ^^^ Do) 55)
  let Bi := (rol (s.ku ^^^ Du) 39)
  let Bo := (rol (s.ma ^^^ Da) 41)
  let Bu := (rol (s.se ^^^ De) 2)
  let nsa := Ba ^^^ (~~~Be &&& Bi)
  let nse := Be ^^^ (~~~Bi &&& Bo)
  let nsi := Bi ^^^ (~~~Bo &&& Bu)
  let nso := Bo ^^^ (~~~Bu &&& Ba)
  let nsu := Bu ^^^ (~~~Ba &&& Be)
  ⟨nba, nbe, nbi, nbo, nbu, nga, nge, ngi, ngo, ngu, nka, nke, nki, nko, nku, nma, nme, nmi, nmo, nmu, nsa, nse, nsi, nso, nsu⟩

/-- Round `n + 1` (keccak.h:219-286): `Exx` to `Axx`. -/
def round1 (s : Lanes) (rc : BitVec 64) : Lanes :=
  let Ba := s.ba ^^^ s.ga ^^^ s.ka ^^^ s.ma ^^^ s.sa
  let Be := s.be ^^^ s.ge ^^^ s.ke ^^^ s.me ^^^ s.se
  let Bi := s.bi ^^^ s.gi ^^^ s.ki ^^^ s.mi ^^^ s.si
  let Bo := s.bo ^^^ s.go ^^^ s.ko ^^^ s.mo ^^^ s.so
  let Bu := s.bu ^^^ s.gu ^^^ s.ku ^^^ s.mu ^^^ s.su
  let Da := Bu ^^^ (rol (Be) 1)
  let De := Ba ^^^ (rol (Bi) 1)
  let Di := Be ^^^ (rol (Bo) 1)
  let Do := Bi ^^^ (rol (Bu) 1)
  let Du := Bo ^^^ (rol (Ba) 1)
  let Ba := s.ba ^^^ Da
  let Be := (rol (s.ge ^^^ De) 44)
  let Bi := (rol (s.ki ^^^ Di) 43)
  let Bo := (rol (s.mo ^^^ Do) 21)
  let Bu := (rol (s.su ^^^ Du) 14)
  let nba := Ba ^^^ (~~~Be &&& Bi) ^^^ rc
  let nbe := Be ^^^ (~~~Bi &&& Bo)
  let nbi := Bi ^^^ (~~~Bo &&& Bu)
  let nbo := Bo ^^^ (~~~Bu &&& Ba)
  let nbu := Bu ^^^ (~~~Ba &&& Be)
  let Ba := (rol (s.bo ^^^ Do) 28)
  let Be := (rol (s.gu ^^^ Du) 20)
  let Bi := (rol (s.ka ^^^ Da) 3)
  let Bo := (rol (s.me ^^^ De) 45)
  let Bu := (rol (s.si ^^^ Di) 61)
  let nga := Ba ^^^ (~~~Be &&& Bi)
  let nge := Be ^^^ (~~~Bi &&& Bo)
  let ngi := Bi ^^^ (~~~Bo &&& Bu)
  let ngo := Bo ^^^ (~~~Bu &&& Ba)
  let ngu := Bu ^^^ (~~~Ba &&& Be)
  let Ba := (rol (s.be ^^^ De) 1)
  let Be := (rol (s.gi ^^^ Di) 6)
  let Bi := (rol (s.ko ^^^ Do) 25)
  let Bo := (rol (s.mu ^^^ Du) 8)
  let Bu := (rol (s.sa ^^^ Da) 18)
  let nka := Ba ^^^ (~~~Be &&& Bi)
  let nke := Be ^^^ (~~~Bi &&& Bo)
  let nki := Bi ^^^ (~~~Bo &&& Bu)
  let nko := Bo ^^^ (~~~Bu &&& Ba)
  let nku := Bu ^^^ (~~~Ba &&& Be)
  let Ba := (rol (s.bu ^^^ Du) 27)
  let Be := (rol (s.ga ^^^ Da) 36)
  let Bi := (rol (s.ke ^^^ De) 10)
  let Bo := (rol (s.mi ^^^ Di) 15)
  let Bu := (rol (s.so ^^^ Do) 56)
  let nma := Ba ^^^ (~~~Be &&& Bi)
  let nme := Be ^^^ (~~~Bi &&& Bo)
  let nmi := Bi ^^^ (~~~Bo &&& Bu)
  let nmo := Bo ^^^ (~~~Bu &&& Ba)
  let nmu := Bu ^^^ (~~~Ba &&& Be)
  let Ba := (rol (s.bi ^^^ Di) 62)
  let Be := (rol (s.go ^^^ Do) 55)
  let Bi := (rol (s.ku ^^^ Du) 39)
  let Bo := (rol (s.ma ^^^ Da) 41)
  let Bu := (rol (s.se ^^^ De) 2)
  let nsa := Ba ^^^ (~~~Be &&& Bi)
  let nse := Be ^^^ (~~~Bi &&& Bo)
  let nsi := Bi ^^^ (~~~Bo &&& Bu)
  let nso := Bo ^^^ (~~~Bu &&& Ba)
  let nsu := Bu ^^^ (~~~Ba &&& Be)
  ⟨nba, nbe, nbi, nbo, nbu, nga, nge, ngi, ngo, ngu, nka, nke, nki, nko, nku, nma, nme, nmi, nmo, nmu, nsa, nse, nsi, nso, nsu⟩

/-- `uint64_t state[25]`. -/
abbrev Array25 := Nat → BitVec 64

/-- The loop over `n` (keccak.h:149): the first argument counts the iterations still to be made. -/
def rounds : Nat → Nat → Lanes → Lanes
  | 0, _, s => s
  | k + 1, n, s => rounds k (n + 2) (round1 (round0 s (roundConstants.getD n 0)) (roundConstants.getD (n + 1) 0))

/-- Reading the local variables from the state (keccak.h:123-147). -/
def load (state : Array25) : Lanes :=
  ⟨state 0, state 1, state 2, state 3, state 4, state 5, state 6, state 7, state 8, state 9, state 10, state 11, state 12, state 13, state 14, state 15, state 16, state 17, state 18, state 19, state 20, state 21, state 22, state 23, state 24⟩

/-- Writing them back (keccak.h:289-313). -/
def store (s : Lanes) : Array25
  | 0 => s.ba
  | 1 => s.be
  | 2 => s.bi
  | 3 => s.bo
  | 4 => s.bu
  | 5 => s.ga
  | 6 => s.ge
  | 7 => s.gi
  | 8 => s.go
  | 9 => s.gu
  | 10 => s.ka
  | 11 => s.ke
  | 12 => s.ki
  | 13 => s.ko
  | 14 => s.ku
  | 15 => s.ma
  | 16 => s.me
  | 17 => s.mi
  | 18 => s.mo
  | 19 => s.mu
  | 20 => s.sa
  | 21 => s.se
  | 22 => s.si
  | 23 => s.so
  | 24 => s.su
  | _ => 0

/-- `keccakf1600_implementation` (keccak.h:105-314). -/
def keccakf (state : Array25) : Array25 := store (rounds 12 0 (load state))

/-- `load_le` (keccak.h:64-73): eight bytes as little-endian number. -/
def loadLe (data : List Byte) : BitVec 64 :=
  data.getD 7 0 ++ data.getD 6 0 ++ data.getD 5 0 ++ data.getD 4 0 ++ data.getD 3 0 ++ data.getD 2 0 ++ data.getD 1 0 ++ data.getD 0 0

/-- An assignment to an element of the state. -/
def upd (state : Array25) (i : Nat) (v : BitVec 64) : Array25 := fun j => if j = i then v else state j

/-- `n` times: the word at `data` is mixed into element `i` and both move on (keccak.h:358-361 and 370-375). -/
def xorWords : Nat → Nat → List Byte → Array25 → Array25
  | 0, _, _, state => state
  | n + 1, i, data, state => xorWords n (i + 1) (data.drop 8) (upd state i (state i ^^^ loadLe data))

/-- The loop over full blocks (keccak.h:357-366), which makes `size / 136` iterations: the state and the rest of the data. -/
def absorb : Nat → List Byte → Array25 → Array25 × List Byte
  | 0, data, state => (state, data)
  | n + 1, data, state => absorb n (data.drop 136) (keccakf (xorWords 17 0 data state))

/-- `keccak` with 256 bits (keccak.h:344-392): the words of `out`. -/
def keccak (data : List Byte) : List (BitVec 64) :=
  let (state, rest) := absorb (data.length / 136) data (fun _ => 0)
  let words := rest.length / 8
  let state := xorWords words 0 rest state
  -- the last bytes and the end marker are written to the bytes of `last_word`
  let lastWord := loadLe (rest.drop (8 * words) ++ [0x01])
  let state := upd state words (state words ^^^ lastWord)
  let state := upd state 16 (state 16 ^^^ 0x8000000000000000)
  let state := keccakf state
  [state 0, state 1, state 2, state 3]

/-- The bytes of `union ethash_hash256`, given its words (keccak.h:50-55). -/
def bytesOf (words : List (BitVec 64)) : List Byte :=
  words.flatMap fun (w : BitVec 64) => [w.setWidth 8, (w >>> 8).setWidth 8, (w >>> 16).setWidth 8, (w >>> 24).setWidth 8, (w >>> 32).setWidth 8,
    (w >>> 40).setWidth 8, (w >>> 48).setWidth 8, (w >>> 56).setWidth 8]

/-- `tosca_lfvm_keccak256` (keccak.h:394-399). -/
def keccak256 (data : List Byte) : List Byte := bytesOf (keccak data)

/-- `keccak_32` (keccak.h:401-440). -/
def keccak32 (a b c d : BitVec 64) : List (BitVec 64) :=
  let state : Array25 := fun _ => 0
  let state := upd state 0 a
  let state := upd state 1 b
  let state := upd state 2 c
  let state := upd state 3 d
  let state := upd state 4 (state 4 ^^^ 0x01)
  let state := upd state 16 (state 16 ^^^ 0x8000000000000000)
  let state := keccakf state
  [state 0, state 1, state 2, state 3]

/-- `uint64(data[i+7])<<56|...|uint64(data[i])<<0` (keccak.go:67-77). -/
def packWord (data : List Byte) (i : Nat) : BitVec 64 :=
  ((data.getD (i + 7) 0).setWidth 64 <<< 56) ||| ((data.getD (i + 6) 0).setWidth 64 <<< 48) ||| ((data.getD (i + 5) 0).setWidth 64 <<< 40) |||
  ((data.getD (i + 4) 0).setWidth 64 <<< 32) ||| ((data.getD (i + 3) 0).setWidth 64 <<< 24) ||| ((data.getD (i + 2) 0).setWidth 64 <<< 16) |||
  ((data.getD (i + 1) 0).setWidth 64 <<< 8) ||| ((data.getD i 0).setWidth 64 <<< 0)

/-- `Keccak256For32byte` (keccak.go:30-32, 62-79). -/
def keccak256For32byte (data : List Byte) : List Byte :=
  bytesOf (keccak32 (packWord data 0) (packWord data 8) (packWord data 16) (packWord data 24))

/-- `Keccak256` (keccak.go:26-28, 54-60): the hash of the empty input is precomputed by another implementation, a parameter. -/
def goKeccak256 (empty : List Byte) (data : List Byte) : List Byte := if data.length = 0 then empty else keccak256 data

end Tosca.Model.Lfvm.Keccak
