/-!
# The access point of the SDK

What the SDK of the ESP8266 is assumed to do with `WiFi.softAP`: it takes a name of 1 to 31 bytes, open or with a key of 8 to 63
bytes; it refuses an empty name and a key of 1 to 7 bytes, and then its access point is the one it had before (its own default, or
the one of an earlier start: it stores them).  Nothing is assumed about longer names and keys (versions of the SDK differ).
-/

namespace Wifinfo.Spec

/-- The rule of the SDK. -/
structure Sdk where
  /-- is this name with this key accepted? -/
  accepts : List UInt8 → Option (List UInt8) → Bool
  open_ok {n} : 1 ≤ n.length → n.length ≤ 31 → accepts n none = true
  key_ok {n k} : 1 ≤ n.length → n.length ≤ 31 → 8 ≤ k.length → k.length ≤ 63 → accepts n (some k) = true
  no_name {k} : accepts [] k = false
  short_key {n k} : 1 ≤ k.length → k.length ≤ 7 → accepts n (some k) = false

/-- An access point: its name and its key. -/
structure AccessPoint where
  name : List UInt8
  key : Option (List UInt8)

/-- The access point after a call of `softAP`. -/
def Sdk.softAP (w : Sdk) (old : AccessPoint) (name : List UInt8) (key : Option (List UInt8)) : AccessPoint :=
  if w.accepts name key then ⟨name, key⟩ else old

end Wifinfo.Spec
