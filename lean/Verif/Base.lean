/-!
# Common definitions

C strings are modelled as `Bytes` without their terminating NUL byte.
-/
namespace Verif

/-- Byte strings. A C string is represented by its bytes up to (not including)
the terminating NUL. -/
abbrev Bytes := List UInt8

/-- ASCII literal to bytes; used in examples only. -/
def b (s : String) : Bytes := s.toList.map (fun c => c.toNat.toUInt8)

/-! ## errno values (Linux), used as negative return codes by the C code -/
@[simp] abbrev ENOENT : Int := 2
@[simp] abbrev EIO : Int := 5
@[simp] abbrev ENODEV : Int := 19
@[simp] abbrev EEXIST : Int := 17
@[simp] abbrev EINVAL : Int := 22
@[simp] abbrev ENOSPC : Int := 28
@[simp] abbrev ENOEXEC : Int := 8
@[simp] abbrev ENOTSUP : Int := 95
@[simp] abbrev ENOTCONN : Int := 107
@[simp] abbrev ENOKEY : Int := 126

/-- `isdigit` on an ASCII byte (libc, C locale). -/
def isDigit (c : UInt8) : Bool := 48 ≤ c && c ≤ 57

/-- `isxdigit` on an ASCII byte (libc, C locale). -/
def isXDigit (c : UInt8) : Bool :=
  isDigit c || (65 ≤ c && c ≤ 70) || (97 ≤ c && c ≤ 102)

/-- libosmocore `is_n_digits()` (gsm23003.c): between `lo` and `hi` characters,
all decimal digits.  (Not in /repo: assumption about libosmocore.) -/
def isNDigits (lo hi : Nat) (s : Bytes) : Bool :=
  lo ≤ s.length && s.length ≤ hi && s.all isDigit

/-- libosmocore `osmo_imsi_str_valid()`: 6..15 digits. -/
def imsiValid (s : Bytes) : Bool := isNDigits 6 15 s

/-- libosmocore `osmo_msisdn_str_valid()`: 1..15 digits. -/
def msisdnValid (s : Bytes) : Bool := isNDigits 1 15 s

/-- libosmocore `osmo_imei_str_valid(imei, false)`: exactly 14 digits. -/
def imeiValid (s : Bytes) : Bool := isNDigits 14 14 s

/-- libosmocore `osmo_is_hexstr(str, min, max, require_even = true)`. -/
def isHexStr (lo hi : Nat) (s : Bytes) : Bool :=
  lo ≤ s.length && s.length ≤ hi && s.all isXDigit && s.length % 2 == 0

/-- The C string at the start of a byte array: everything before the first NUL.
Only meaningful when the array does contain a NUL. -/
def cstr (raw : Bytes) : Bytes := raw.takeWhile (· != 0)

/-- libosmocore `osmo_strlcpy(dst, src, size)`: the text kept in a buffer of
`size` bytes. -/
def strlcpy (size : Nat) (s : Bytes) : Bytes := s.take (size - 1)

end Verif
