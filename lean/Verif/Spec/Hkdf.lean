import Verif.Model.Prims
/-
RFC 5869 section 2.3 (HKDF-Expand) and RFC 8446 section 7.1 (HkdfLabel,
HKDF-Expand-Label), sections 7.2 and 7.3 (key update and traffic keys).
-/
namespace S2A.Spec

/-- RFC 5869: T(0) is empty and T(i) = HMAC(PRK, T(i-1) | info | i). -/
def hkdfT (H : Bytes → Bytes → Bytes) (prk info : Bytes) : Nat → Bytes
  | 0 => []
  | i + 1 => H prk (hkdfT H prk info i ++ info ++ [UInt8.ofNat (i + 1)])

/-- RFC 5869: OKM is the first L octets of T(1) | T(2) | … | T(N), N = ceil(L / HashLen). -/
def hkdfExpand (H : Bytes → Bytes → Bytes) (hashLen : Nat) (prk info : Bytes) (len : Nat) :
    Bytes :=
  (((List.range ((len + hashLen - 1) / hashLen)).map fun i => hkdfT H prk info (i + 1)).flatten).take
    len

/-- ASCII bytes of a string. -/
def ascii (s : String) : Bytes := s.toList.map fun c => UInt8.ofNat c.toNat

/-- RFC 8446 section 7.1:
`struct { uint16 length; opaque label<7..255>; opaque context<0..255>; } HkdfLabel`
with label = "tls13 " + Label. -/
def hkdfLabel (len : Nat) (label : String) (context : Bytes) : Bytes :=
  let full := ascii "tls13 " ++ ascii label
  [UInt8.ofNat (len / 256), UInt8.ofNat len] ++ (UInt8.ofNat full.length :: full) ++
    (UInt8.ofNat context.length :: context)

/-- RFC 8446 section 7.1: HKDF-Expand-Label. -/
def expandLabel (L : Lib) (h : HashFn) (secret : Bytes) (label : String) (context : Bytes)
    (len : Nat) : Bytes :=
  hkdfExpand (L.hmac h) h.digestSize secret (hkdfLabel len label context) len

/-- RFC 8446 section 7.2: application_traffic_secret_N+1. -/
def nextSecret (L : Lib) (h : HashFn) (secret : Bytes) : Bytes :=
  expandLabel L h secret "traffic upd" [] h.digestSize

/-- The traffic secret after `n` updates. -/
def secretAfter (L : Lib) (h : HashFn) (secret : Bytes) : Nat → Bytes
  | 0 => secret
  | n + 1 => nextSecret L h (secretAfter L h secret n)

/-- RFC 8446 section 7.3: write_key and write_iv. -/
def trafficKey (L : Lib) (h : HashFn) (secret : Bytes) (keyLen : Nat) : Bytes :=
  expandLabel L h secret "key" [] keyLen
def trafficIv (L : Lib) (h : HashFn) (secret : Bytes) : Bytes :=
  expandLabel L h secret "iv" [] 12

/-- RFC 8446 section 5.3: the sequence number in network order, left-padded with zeros
to the IV length (12), XORed with the IV. -/
def recordNonce (iv : Bytes) (seq : Nat) : Bytes :=
  List.zipWith (· ^^^ ·) iv
    (List.replicate 4 0 ++ (List.range 8).map fun i => UInt8.ofNat (seq / 256 ^ (7 - i)))

end S2A.Spec
