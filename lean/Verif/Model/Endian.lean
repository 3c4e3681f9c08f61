import Verif.Model.IntList

/-!
Byte order of binary files (endianIO.c) and finit.

Memory and files are lists of bytes (`char` is one byte). A machine is given by its byte order.
Writing to a file always succeeds. `unsigned int b` does not overflow (item sizes below 2^32).
-/

namespace Sgrid.Endian

/-- A byte. -/
abbrev Byte := BitVec 8

/-- `for(b=0; b<n; b++) dst[b] = src(b)`. -/
def fill (n : Nat) (src : Nat → Res Byte) (dst : List Byte) : Res (List Byte) :=
  forN n (fun b c => (src b).bind fun x => aput c b x) dst

/-- SGRID_fwrite_swapbytes (endianIO.c:59-72): returns the file and the number of items. -/
def fwriteSwap (junk : Byte) (buf : List Byte) (size nmemb : Nat) (file : List Byte) :
    Res (List Byte × Nat) :=
  (forN nmemb (fun i (s : List Byte × Nat) =>
    (fill size (fun b => aget buf (i * size + size - 1 - b)) (List.replicate size junk)).bind
      fun c => .ok (s.1 ++ c, s.2 + size)) (file, 0)).bind fun s =>
  if size = 0 then .ub else .ok (s.1, s.2 / size)

/-- `fread(c, 1, size, fp)`: fills the beginning of `c`; the rest of the file remains. -/
def freadBytes (c : List Byte) (size : Nat) (file : List Byte) : List Byte × List Byte × Nat :=
  let got := file.take size
  (got ++ c.drop got.length, file.drop size, got.length)

/-- `for(b=0; b<size; b++) buf[i*size + b] = c[size-1-b]` (endianIO.c:85). -/
def putSwapped (buf c : List Byte) (i size : Nat) : Res (List Byte) :=
  forN size (fun b d => (aget c (size - 1 - b)).bind fun x => aput d (i * size + b) x) buf

/-- SGRID_fread_swapbytes (endianIO.c:75-88): returns the memory, the rest of the file and the
number of items. The array `c` keeps its contents between the items. -/
def freadSwap (junk : Byte) (buf : List Byte) (size nmemb : Nat) (file : List Byte) :
    Res (List Byte × List Byte × Nat) :=
  (forN nmemb (fun i (s : (List Byte × List Byte) × List Byte × Nat) =>
    let r := freadBytes s.1.2 size s.2.1
    (putSwapped s.1.1 r.1 i size).bind fun d => .ok ((d, r.1), r.2.1, s.2.2 + r.2.2))
    ((buf, List.replicate size junk), file, 0)).bind fun s =>
  if size = 0 then .ub else .ok (s.1.1, s.2.1, s.2.2 / size)

/-- fwrite of the C library. -/
def fwrite (buf : List Byte) (size nmemb : Nat) (file : List Byte) : Res (List Byte × Nat) :=
  if buf.length < size * nmemb then .ub
  else .ok (file ++ buf.take (size * nmemb), if size = 0 then 0 else nmemb)

/-- fread of the C library. -/
def fread (buf : List Byte) (size nmemb : Nat) (file : List Byte) :
    Res (List Byte × List Byte × Nat) :=
  if buf.length < size * nmemb then .ub
  else
    let got := file.take (size * nmemb)
    .ok (got ++ buf.drop got.length, file.drop (size * nmemb),
      if size = 0 then 0 else got.length / size)

/-- SGRID_fwrite_little (endianIO.c:91-100) on a machine with byte order `little`. -/
def fwriteLittle (little : Bool) (junk : Byte) (buf : List Byte) (size nmemb : Nat)
    (file : List Byte) : Res (List Byte × Nat) :=
  if little then fwrite buf size nmemb file else fwriteSwap junk buf size nmemb file

/-- SGRID_fread_little (endianIO.c:104-113). -/
def freadLittle (little : Bool) (junk : Byte) (buf : List Byte) (size nmemb : Nat)
    (file : List Byte) : Res (List Byte × List Byte × Nat) :=
  if little then fread buf size nmemb file else freadSwap junk buf size nmemb file

/-- SGRID_fwrite_big (endianIO.c:116-125). -/
def fwriteBig (little : Bool) (junk : Byte) (buf : List Byte) (size nmemb : Nat)
    (file : List Byte) : Res (List Byte × Nat) :=
  if !little then fwrite buf size nmemb file else fwriteSwap junk buf size nmemb file

/-- SGRID_fread_big (endianIO.c:129-138). -/
def freadBig (little : Bool) (junk : Byte) (buf : List Byte) (size nmemb : Nat)
    (file : List Byte) : Res (List Byte × List Byte × Nat) :=
  if !little then fread buf size nmemb file else freadSwap junk buf size nmemb file

/-- fwrite_double_little (endianIO.c:160-170); `double` has 8 bytes. -/
def fwriteDoubleLittle (little : Bool) (junk : Byte) (buf : List Byte) (nmemb : Nat)
    (file : List Byte) : Res (List Byte × Nat) := fwriteLittle little junk buf 8 nmemb file

/-- fread_double_little (endianIO.c:173-182). -/
def freadDoubleLittle (little : Bool) (junk : Byte) (buf : List Byte) (nmemb : Nat)
    (file : List Byte) : Res (List Byte × List Byte × Nat) := freadLittle little junk buf 8 nmemb file

/-- finit (utilities.c:186-203) on the bit pattern of the double. -/
def finit (bits : BitVec 64) : Int :=
  if bits ||| 0x800FFFFFFFFFFFFF#64 = 0xFFFFFFFFFFFFFFFF#64 then 0 else 1

end Sgrid.Endian
