import Verif.Py.Text
/-
UTF-8 as used by `open(..., encoding='utf-8')` (/repo/pyuff/pyuff.py:422, 428) and
`bytes.decode('utf-8', errors='replace')` (/repo/pyuff/pyuff.py:360).
-/
namespace Verif

/-- UTF-8 bytes of one character (text-mode writes, `/repo/pyuff/pyuff.py:422,428`). -/
def encodeChar (c : Char) : Bytes :=
  let n := c.toNat
  if n < 0x80 then [UInt8.ofNat n]
  else if n < 0x800 then [UInt8.ofNat (0xc0 + n / 64), UInt8.ofNat (0x80 + n % 64)]
  else if n < 0x10000 then
    [UInt8.ofNat (0xe0 + n / 4096), UInt8.ofNat (0x80 + n / 64 % 64), UInt8.ofNat (0x80 + n % 64)]
  else
    [UInt8.ofNat (0xf0 + n / 262144), UInt8.ofNat (0x80 + n / 4096 % 64),
     UInt8.ofNat (0x80 + n / 64 % 64), UInt8.ofNat (0x80 + n % 64)]

/-- Text-mode write with `encoding='utf-8'` on a platform whose line separator is LF
(`/repo/pyuff/pyuff.py:422,428`). -/
def encode (t : Text) : Bytes := t.flatMap encodeChar

/-- U+FFFD, the replacement character. -/
def repl : Char := Char.ofNat 0xFFFD

/-- Continuation byte. -/
def isCont (b : UInt8) : Bool := 0x80 ≤ b.toNat && b.toNat < 0xc0
/-- Legal second byte of a three-byte sequence with lead byte `b0`. -/
def second3 (b0 b1 : UInt8) : Bool :=
  if b0.toNat = 0xe0 then 0xa0 ≤ b1.toNat && b1.toNat < 0xc0
  else if b0.toNat = 0xed then 0x80 ≤ b1.toNat && b1.toNat < 0xa0
  else isCont b1
/-- Legal second byte of a four-byte sequence with lead byte `b0`. -/
def second4 (b0 b1 : UInt8) : Bool :=
  if b0.toNat = 0xf0 then 0x90 ≤ b1.toNat && b1.toNat < 0xc0
  else if b0.toNat = 0xf4 then 0x80 ≤ b1.toNat && b1.toNat < 0x90
  else isCont b1

/-- `bytes.decode('utf-8', errors='replace')`: every maximal invalid prefix becomes one U+FFFD
(`/repo/pyuff/pyuff.py:360`, `/repo/pyuff/datasets/dataset_58.py:1034`). -/
def decode : Bytes → Text
  | [] => []
  | b0 :: r0 =>
    let n0 := b0.toNat
    if n0 < 0x80 then Char.ofNat n0 :: decode r0
    else if 0xc2 ≤ n0 ∧ n0 < 0xe0 then
      match r0 with
      | b1 :: r1 =>
        if isCont b1 then Char.ofNat ((n0 - 0xc0) * 64 + (b1.toNat - 0x80)) :: decode r1
        else repl :: decode (b1 :: r1)
      | [] => [repl]
    else if 0xe0 ≤ n0 ∧ n0 < 0xf0 then
      match r0 with
      | b1 :: r1 =>
        if second3 b0 b1 then
          match r1 with
          | b2 :: r2 =>
            if isCont b2 then
              Char.ofNat ((n0 - 0xe0) * 4096 + (b1.toNat - 0x80) * 64 + (b2.toNat - 0x80)) :: decode r2
            else repl :: decode (b2 :: r2)
          | [] => [repl]
        else repl :: decode (b1 :: r1)
      | [] => [repl]
    else if 0xf0 ≤ n0 ∧ n0 < 0xf5 then
      match r0 with
      | b1 :: r1 =>
        if second4 b0 b1 then
          match r1 with
          | b2 :: r2 =>
            if isCont b2 then
              match r2 with
              | b3 :: r3 =>
                if isCont b3 then
                  Char.ofNat ((n0 - 0xf0) * 262144 + (b1.toNat - 0x80) * 4096
                    + (b2.toNat - 0x80) * 64 + (b3.toNat - 0x80)) :: decode r3
                else repl :: decode (b3 :: r3)
              | [] => [repl]
            else repl :: decode (b2 :: r2)
          | [] => [repl]
        else repl :: decode (b1 :: r1)
      | [] => [repl]
    else repl :: decode r0

end Verif
