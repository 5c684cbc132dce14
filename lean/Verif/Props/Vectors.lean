import Verif.Model.Mfa
import Verif.Spec.Toy
/-!
# Published test vectors for one-time passcodes (C29)
-/
namespace GoIdentity
open Toy

-- RFC 4226 appendix D: the ten codes for counters 0 to 9.
example : (List.range 10).map (fun n => generateMfaCode (gs! "12345678901234567890") (gs! "sha1") 6 n) =
    [gs! "755224", gs! "287082", gs! "359152", gs! "969429", gs! "338314", gs! "254676", gs! "287922", gs! "162583",
     gs! "399871", gs! "520489"].map .ok := by decide +kernel

-- RFC 6238 appendix B: times 59, 1111111109, 1111111111, 1234567890, 2000000000 and 20000000000.
example : ([59, 1111111109, 1111111111, 1234567890, 2000000000, 20000000000].map fun t =>
      generateMfaCode (gs! "12345678901234567890") (gs! "sha1") 8 (t / 30)) =
    [gs! "94287082", gs! "07081804", gs! "14050471", gs! "89005924", gs! "69279037", gs! "65353130"].map .ok := by
  decide +kernel
example : ([59, 1111111109, 1111111111, 1234567890, 2000000000, 20000000000].map fun t =>
      generateMfaCode (gs! "12345678901234567890123456789012") (gs! "sha256") 8 (t / 30)) =
    [gs! "46119246", gs! "68084774", gs! "67062674", gs! "91819424", gs! "90698825", gs! "77737706"].map .ok := by
  decide +kernel
example : ([59, 1111111109, 1111111111, 1234567890, 2000000000, 20000000000].map fun t =>
      generateMfaCode (gs! "1234567890123456789012345678901234567890123456789012345678901234") (gs! "sha512") 8 (t / 30)) =
    [gs! "90693936", gs! "25091201", gs! "99943326", gs! "93441116", gs! "38618901", gs! "47863826"].map .ok := by
  decide +kernel

end GoIdentity
