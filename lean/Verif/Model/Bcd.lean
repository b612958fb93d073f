import Verif.Basic

/-!
# BCD strings: `/repo/src/iu_helpers.c` lines 45-91
-/

namespace Verif.Bcd

/-- libosmocore `osmo_bcd2char` (external; DESIGN.md section 3), for a nibble. -/
def bcd2char (n : Nat) : Byte :=
  if n < 10 then BitVec.ofNat 8 (0x30 + n) else BitVec.ofNat 8 (0x41 + (n - 10))

/-- libosmocore `osmo_char2bcd` (external; DESIGN.md section 3). -/
def char2bcd (c : Byte) : Byte :=
  if 0x30 ≤ c.toNat ∧ c.toNat ≤ 0x39 then c - 0x30
  else if 0x41 ≤ c.toNat ∧ c.toNat ≤ 0x46 then c - 0x41 + 10
  else if 0x61 ≤ c.toNat ∧ c.toNat ≤ 0x66 then c - 0x61 + 10
  else 0

/-- `*ch & 0xF` -/
def loNibble (b : Byte) : Nat := (b &&& 0xF).toNat
/-- `*ch >> 4` -/
def hiNibble (b : Byte) : Nat := (b >>> 4).toNat

/-- `ranap_bcd_decode`, `/repo/src/iu_helpers.c:46-64`.

The loop (l.51-61) with `off = outch - out`.  `out` is the caller's buffer, whose
real size is `out.length`; `outLen` is the `out_len` argument.  The comparison
`outch + 1 >= out + out_len` is `off + 1 >= outLen`.  The `for` loop over the
input is structural recursion on the remaining input.  -/
def decodeLoop (outLen : Nat) : (inp : Bytes) → (out : Buf) → (off : Nat) → Res (Buf × Nat)
  | [], out, off => .ok (out, off)
  | ch :: rest, out, off => do
    let out ← bufWrite out off (bcd2char (loNibble ch))           -- l.52-53
    let off := off + 1
    if off + 1 ≥ outLen then                                      -- l.54-55
      .ok (out, off)
    else
      let c := bcd2char (hiNibble ch)                             -- l.56
      if c = 0x46 then                                            -- l.58 'F'
        .ok (out, off)
      else do
        let out ← bufWrite out off c                              -- l.60
        decodeLoop outLen rest out (off + 1)

/-- `ranap_bcd_decode`, `/repo/src/iu_helpers.c:46-64`: result is the buffer
content and the return value. -/
def decode (out : Buf) (outLen : Nat) (inp : Bytes) : Res (Buf × Nat) := do
  let (out, off) ← decodeLoop outLen inp out 0
  let out ← bufWrite out off 0                                    -- l.62
  .ok (out, off + 1)                                              -- l.63

/-- The loop of `ranap_imsi_encode`, `/repo/src/iu_helpers.c:79-89`; `n` is the
number of iterations left, `i` the loop counter.  Reading `in[off]`: the
string has `str.length` characters followed by the terminating NUL. -/
def encodeLoop (str : Bytes) (odd : Bool) : (n : Nat) → (i off : Nat) → Buf → Res Buf
  | 0, _, _, out => .ok out
  | n + 1, i, off, out => do
    let c ← bufRead (str ++ [0]) off                              -- l.82
    let lower := char2bcd c &&& 0x0f
    let off := off + 1
    if odd ∧ off = str.length then                                -- l.83
      let out ← bufWrite out i (((0x0f : Byte) <<< 4) ||| lower)           -- l.84, 88
      encodeLoop str odd n (i + 1) off out
    else do
      let c ← bufRead (str ++ [0]) off                            -- l.86
      let upper := char2bcd c &&& 0x0f
      let out ← bufWrite out i ((upper <<< 4) ||| lower)          -- l.88
      encodeLoop str odd n (i + 1) (off + 1) out

/-- `ranap_imsi_encode`, `/repo/src/iu_helpers.c:67-91`.  `str` is the content of
the C string `in` (without NUL); `out` is the caller's buffer.  The argument
`out_len` is not used by the code and so is no argument here.  The `unsigned int`
truncation of `strlen` is not modelled (strings shorter than 2^32). -/
def imsiEncode (out : Buf) (str : Bytes) : Res (Buf × Nat) := do
  let len := str.length                                           -- l.69
  let odd := len % 2 = 1                                          -- l.71
  let octlen := len / 2 + (if odd then 1 else 0)                  -- l.75-77
  let out ← encodeLoop str odd octlen 0 0 out
  .ok (out, octlen)                                               -- l.90

end Verif.Bcd
