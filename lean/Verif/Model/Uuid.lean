import Verif.Model.Small
import Verif.Model.SshKeys
/-!
# UUIDs (uuid.go:24-26, github.com/satori/go.uuid v1.2.0)
-/
namespace GoIdentity

/-- `uuid.NewV4` for the 16 bytes read from `crypto/rand`: `SetVersion` and `SetVariant` overwrite six bits
(satori/go.uuid generator.go, uuid.go). -/
def newV4 (r : List UInt8) : List UInt8 :=
  (r.modify 6 fun b => (b &&& 0x0f) ||| 0x40).modify 8 fun b => (b &&& 0x3f) ||| 0x80

/-- `hex.Encode`. -/
def hexEncode (bs : List UInt8) : GoString := bs.flatMap fun b => [hexDigit (b.toNat / 16), hexDigit (b.toNat % 16)]

/-- `UUID.String` (satori/go.uuid uuid.go): five groups of hexadecimal digits. -/
def uuidText (u : List UInt8) : GoString :=
  hexEncode (u.take 4) ++ [45] ++ hexEncode ((u.drop 4).take 2) ++ [45] ++ hexEncode ((u.drop 6).take 2) ++ [45] ++
    hexEncode ((u.drop 8).take 2) ++ [45] ++ hexEncode (u.drop 10)

/-- `NewID` (uuid.go:24-26) for the 16 bytes drawn. -/
def newID (r : List UInt8) : GoString := uuidText (newV4 r)

example : newID (List.replicate 16 0xff) = gs! "ffffffff-ffff-4fff-bfff-ffffffffffff" := by decide +kernel
example : newID ((List.range 16).map UInt8.ofNat) = gs! "00010203-0405-4607-8809-0a0b0c0d0e0f" := by decide +kernel

end GoIdentity
