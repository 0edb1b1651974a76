import Verif.Model.Console
import Verif.Model.Backup

/-!
# The command `esp` of the console

The list that `esp` prints with any argument but `restart` and `reset` (those are in `Model/Cli.lean` and `Model/Store.lean`), as built without
`ENABLE_DEBUG` (with it, `WiFi.printDiag` adds lines).
-/

namespace Wifinfo
open Spec

/-- What the SDK, the core and the linker answer to the calls of cli.cpp:206-241.  `eepromStart`, `fsStart` and `fsEnd` are the addresses of
`_EEPROM_start`, `_FS_start` and `_FS_end`. -/
structure EspEnv where
  chipId : UInt32
  cpuMhz : UInt8
  vcc : UInt16
  resetReason : Str
  resetInfo : Str
  sdkVersion : Str
  coreVersion : Str
  fullVersion : Str
  sketchSize : UInt32
  freeSketch : UInt32
  flashReal : UInt32
  flashOk : Bool
  vendorId : UInt32
  eepromStart : UInt32
  fsStart : UInt32
  fsEnd : UInt32
  freeHeap : UInt32
  maxBlock : UInt32
  fragmentation : UInt8
  fsTotal : UInt32
  fsUsed : UInt32
  fsBlock : UInt32
  fsPage : UInt32
  fsOpen : UInt32
  fsPath : UInt32
  status : UInt8
  mode : UInt8
  localIp : Str
  hostname : Str
  softApIp : Str
  persistent : Bool

/-- `%08x` of a 32-bit value. -/
def hex08 (v : UInt32) : Str := lowHex4 (v.toNat / 65536) ++ lowHex4 (v.toNat % 65536)

/-- `%x` of a 32-bit value. -/
def hexShort (v : UInt32) : Str :=
  match (hex08 v).dropWhile (· == 48) with
  | [] => [48]
  | b :: r => b :: r

/-- `Serial.printf_P(PSTR("<caption>%...\n"), value)` -/
def infoLine (caption : String) (value : Str) : Str := bs caption ++ value ++ [10]

/-- cli.cpp:206-241; 0x40200000 is where the flash is seen in memory and 4096 is `SPI_FLASH_SEC_SIZE`. -/
def espInfo (e : EspEnv) : Str :=
  infoLine "ChipId      : 0x" (hex06 e.chipId) ++
  infoLine "CpuFreqMHz  : " (decText e.cpuMhz.toNat) ++
  infoLine "Vcc         : " (decText e.vcc.toNat) ++
  infoLine "ResetReason : " e.resetReason ++
  infoLine "ResetInfo   : " e.resetInfo ++
  infoLine "SdkVersion  : " e.sdkVersion ++
  infoLine "CoreVersion : " e.coreVersion ++
  infoLine "FullVersion : " e.fullVersion ++
  infoLine "SketchSize        : " (decText e.sketchSize.toNat) ++
  infoLine "FreeSketchSpace   : " (decText e.freeSketch.toNat) ++
  infoLine "FlashChipRealSize : " (decText e.flashReal.toNat) ++
  infoLine "checkFlashConfig  : " (decText e.flashOk.toNat) ++
  infoLine "FlashChipVendorId : 0x" (hexShort e.vendorId) ++
  infoLine "EEPROM_start      : 0x" (hex08 (e.eepromStart - 0x40200000)) ++
  infoLine "EEPROM_end        : 0x" (hex08 (e.eepromStart - 0x40200000 + 4096)) ++
  infoLine "FS_start          : 0x" (hex08 (e.fsStart - 0x40200000)) ++
  infoLine "FS_end            : 0x" (hex08 (e.fsEnd - 0x40200000)) ++
  infoLine "FreeHeap          : " (decText e.freeHeap.toNat) ++
  infoLine "MaxFreeBlockSize  : " (decText e.maxBlock.toNat) ++
  infoLine "HeapFragmentation : " (decText e.fragmentation.toNat) ++
  infoLine "FS totalBytes    : " (decText e.fsTotal.toNat) ++
  infoLine "FS usedBytes     : " (decText e.fsUsed.toNat) ++
  infoLine "FS blockSize     : " (decText e.fsBlock.toNat) ++
  infoLine "FS pageSize      : " (decText e.fsPage.toNat) ++
  infoLine "FS maxOpenFiles  : " (decText e.fsOpen.toNat) ++
  infoLine "FS maxPathLength : " (decText e.fsPath.toNat) ++
  infoLine "WiFi status : " (decText e.status.toNat) ++
  infoLine "WiFi mode   : " (decText e.mode.toNat) ++
  infoLine "localIP     : " e.localIp ++
  infoLine "hostname    : " e.hostname ++
  infoLine "softAPIP    : " e.softApIp ++
  infoLine "Persistent  : " (decText e.persistent.toNat)

end Wifinfo
