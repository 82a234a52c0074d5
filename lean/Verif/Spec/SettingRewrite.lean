import Verif.Spec.Setting
import Verif.Spec.Crc

/-! # Specification of setting files that are written back as they were -/

namespace Rekordcrate

/-- In the 32 bytes from `k` on, only zero bytes follow a zero byte. -/
def ZeroFilled (bs : List UInt8) (k : Nat) : Prop :=
  ∀ i j, k ≤ i → i < j → j < k + 32 → bs[i]? = some 0 → bs[j]? = some 0

/-- The bytes that the checksum of a file of kind `t` is about: everything in front of the checksum in `DJMMYSETTING`,
the data section in the other files. -/
def checkedBytes (t : SettingType) (bs : List UInt8) : List UInt8 :=
  let start := if t = .djmMySetting then 0 else 104
  (bs.drop start).take (104 + dataSize t - start)

/-- The number behind the data section is the CRC-16/XMODEM of the checked bytes. -/
def RightChecksum (t : SettingType) (bs : List UInt8) : Prop :=
  ∃ ck, HasAt bs (104 + dataSize t) (encU16 ck) ∧ IsCrc16Xmodem (checkedBytes t bs) ck

end Rekordcrate
