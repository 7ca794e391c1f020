import Verif.Spec.Std
/-
The cryptographic library with the algorithms of the standards (Spec/Std.lean).  Every theorem about
an arbitrary `Lib` holds of it; with it the model computes the bytes that appear in the tests
of the repository (the other files of this directory).
-/
namespace S2A

theorem Spec.Std.toBE_length (n x : Nat) : (Spec.Std.toBE n x).length = n := by
  simp [Spec.Std.toBE, Spec.Std.force_eq]

theorem Spec.Std.toLE_length (n x : Nat) : (Spec.Std.toLE n x).length = n := by
  simp [Spec.Std.toLE, Spec.Std.force_eq]

open Spec.Std in
/-- OpenSSL or BoringSSL, as the standards have it: HMAC with SHA-256 and SHA-384, AES-GCM,
ChaCha20-Poly1305. -/
def Lib.std (boring : Bool := false) : Lib where
  boring := boring
  hmac h k m := match h with
    | .sha256 => sha256.hmac k m
    | .sha384 => sha384.hmac k m
    | .other => []
  hmac_len h k m := by
    cases h
    · exact toBE_length 32 _
    · exact toBE_length 48 _
    · rfl
  ks a := match a with
    | .chachaPoly => chachaKs
    | _ => gcmKs
  mac a := match a with
    | .chachaPoly => chachaTag
    | _ => gcmTag
  mac_len a k n d c := by
    cases a
    · simp only [gcmTag, force_eq]; exact toBE_length 16 _
    · simp only [gcmTag, force_eq]; exact toBE_length 16 _
    · simp only [chachaTag, poly1305, force_eq]; exact toLE_length 16 _

end S2A
