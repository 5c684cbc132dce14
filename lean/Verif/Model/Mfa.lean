import Verif.Model.Base64
import Verif.Model.P256
import Verif.Model.Structs
/-!
# mfa_token.go, webauthn.go
-/
namespace GoIdentity
variable [Ext]

/-! ## TOTP -/

/-- Big-endian bytes of a 64-bit counter (mfa_token.go:494-495). -/
def be64 (n : Nat) : GoString :=
  [UInt8.ofNat (n / 2 ^ 56), UInt8.ofNat (n / 2 ^ 48), UInt8.ofNat (n / 2 ^ 40), UInt8.ofNat (n / 2 ^ 32),
   UInt8.ofNat (n / 2 ^ 24), UInt8.ofNat (n / 2 ^ 16), UInt8.ofNat (n / 2 ^ 8), UInt8.ofNat n]

/-- The algorithm switch (mfa_token.go:481-492). -/
def hashAlg (algo : GoString) : Res HashAlg :=
  if algo = gs! "sha1" then .ok .sha1
  else if algo = gs! "sha256" then .ok .sha256
  else if algo = gs! "sha512" then .ok .sha512
  else if algo = [] then .err (.std .mfaTokenEmptyAlgorithm)
  else .err (.withV .mfaTokenInvalidAlgorithm [algo] [])

/-- Dynamic truncation (mfa_token.go:499-503); `none` is an index out of range. -/
def truncate (sum : GoString) : Option Nat :=
  match sum.getLast? with
  | none => none
  | some l =>
    let off := (l &&& 0xf).toNat
    match sum[off]?, sum[off + 1]?, sum[off + 2]?, sum[off + 3]? with
    | some b0, some b1, some b2, some b3 =>
      some (((b0.toNat &&& 0x7f) <<< 24) ||| ((b1 &&& 0xff).toNat <<< 16) ||| ((b2 &&& 0xff).toNat <<< 8) |||
        (b3.toNat &&& 0xff))
    | _, _, _, _ => none

/-- `generateMfaCode` (mfa_token.go:478-507).  A negative digit count makes `int64(math.Pow10(digits))` zero and the
remainder panics; for ten and more digits the remainder is the value itself. -/
def generateMfaCode (secret algo : GoString) (digits : Int) (ts : Nat) : Res GoString :=
  match hashAlg algo with
  | .err e => .err e
  | .panic => .panic
  | .ok h =>
    match truncate (Sha.hmac h secret (be64 ts)) with
    | none => .panic
    | some val =>
      if digits < 0 then .panic
      else .ok (padDec digits.toNat (val % 10 ^ digits.toNat))

/-- The time step (mfa_token.go:461) as integer division; `Verif.Props.Float` shows that the floating-point computation gives
this for times below 2^53. -/
def timeStep (unix period : Int) : Nat :=
  if 0 ≤ unix ∧ 0 < period then (unix / period).toNat else Ext.oddStep unix period

/-- The loop over candidate steps (mfa_token.go:466-475). -/
def tryCodes (secret algo : GoString) (digits : Int) (code : GoString) : List Nat → Res Unit
  | [] => .err (.withV .mfaTokenInvalidPasscode [gs! "failed"] [])
  | t :: ts =>
    match generateMfaCode secret algo digits t with
    | .err _ => tryCodes secret algo digits code ts
    | .panic => .panic
    | .ok c => if c = code then .ok () else tryCodes secret algo digits code ts

/-- `ValidateCodeWithTime` (mfa_token.go:450-476); steps are unsigned 64-bit numbers and wrap around. -/
def validateCodeWithTime (p : MfaToken) (code0 : GoString) (unix : Int) : Res Unit :=
  let code := trimSpace code0
  if code = [] then .err (.withV .mfaTokenInvalidPasscode [gs! "empty"] [])
  else if code.length < 4 ∨ 8 < code.length then .err (.withV .mfaTokenInvalidPasscode [gs! "not 4-8 characters long"] [])
  else if (code.length : Int) ≠ p.digits then .err (.withV .mfaTokenInvalidPasscode [gs! "digits length mismatch"] [])
  else
    let tp := timeStep unix p.period % 2 ^ 64
    tryCodes p.secret p.algorithm p.digits code [tp, (tp + 1) % 2 ^ 64, (tp + (2 ^ 64 - 1)) % 2 ^ 64]

/-- `ValidateCode` (mfa_token.go:439-447). -/
def validateCode (p : MfaToken) (code : GoString) (unix : Int) : Res Unit :=
  if p.type = gs! "totp" then validateCodeWithTime p code unix
  else .err (.withV .mfaTokenInvalidPasscode [gs! "unsupported token type"] [])

/-! ## NewMfaToken -/

/-- The TOTP part of `NewMfaToken` (mfa_token.go:114-144): the token and the algorithm written back to the request. -/
def newTotp (nd : Nondet) (p : MfaToken) (m : ReqMfaToken) : Res MfaToken × GoString :=
  let alg := toLower m.algorithm
  let alg? : Option GoString :=
    if alg = gs! "sha1" ∨ alg = gs! "sha256" ∨ alg = gs! "sha512" then some alg
    else if alg = [] then some (gs! "sha1")
    else none
  match alg? with
  | none => (.err (.withV .mfaTokenInvalidAlgorithm [alg] []), m.algorithm)
  | some alg =>
    if m.period < 30 ∨ 300 < m.period then (.err (.withV .mfaTokenInvalidPeriod [] [m.period]), alg)
    else
      let digits := if m.digits = 0 then 6 else m.digits
      if digits < 4 ∨ 8 < digits then (.err (.withV .mfaTokenInvalidDigits [] [digits]), alg)
      else
        let p := { p with secret := m.secret, algorithm := alg, period := m.period, digits := digits }
        match validateCodeWithTime p m.passcode (nd.unix - m.period) with
        | .ok _ => (.ok p, alg)
        | .err e => (.err e, alg)
        | .panic => (.panic, alg)

/-- The transport switch (mfa_token.go:177-188). -/
def checkTransports : List GoString → Res Unit
  | [] => .ok ()
  | tr :: ts =>
    if tr = gs! "usb" ∨ tr = gs! "nfc" ∨ tr = gs! "ble" ∨ tr = gs! "internal" then checkTransports ts
    else if tr = [] then .err (.std .webAuthnEmptyRegisterTransport)
    else .err (.withV .webAuthnInvalidRegisterTransport [tr] [])

/-- `v.(float64)` compared with a constant: panics unless the value is a number (mfa_token.go:226,239,252). -/
def numberIs (v : Json) (n : Int) : Res Bool :=
  match v with
  | .num l => .ok (floatIs l n)
  | _ => .panic

/-- `v.(string)` of an optional member (mfa_token.go:259-264). -/
def optString (v : Option Json) : Res GoString :=
  match v with
  | none => .ok []
  | some (.str s) => .ok s
  | some _ => .panic

/-- The checks on the COSE key (mfa_token.go:223-273): curve type, X and Y.  The number quoted by an error is a tag. -/
def checkCoseKey (pk : List (GoString × Json)) : Res (GoString × GoString × GoString) :=
  match mapGet (gs! "key_type") pk with
  | none => .err (.std .webAuthnRegisterPublicKeyTypeNotFound)
  | some v =>
    match numberIs v 2 with
    | .panic => .panic
    | .err e => .err e
    | .ok false => .err (.withV .webAuthnRegisterPublicKeyUnsupported [gs! "number"] [])
    | .ok true =>
      match mapGet (gs! "algorithm") pk with
      | none => .err (.std .webAuthnRegisterPublicKeyAlgorithmNotFound)
      | some v =>
        match numberIs v (-7) with
        | .panic => .panic
        | .err e => .err e
        | .ok false => .err (.withV .webAuthnRegisterPublicKeyAlgorithmUnsupported [gs! "number"] [])
        | .ok true =>
          let curve : Res GoString :=
            match mapGet (gs! "curve_type") pk with
            | none => .ok []
            | some v =>
              match numberIs v 1 with
              | .panic => .panic
              | .err e => .err e
              | .ok false => .err (.withV .webAuthnRegisterPublicKeyCurveUnsupported [gs! "number"] [])
              | .ok true => .ok (gs! "p256")
          match curve with
          | .panic => .panic
          | .err e => .err e
          | .ok curve =>
            match optString (mapGet (gs! "curve_x") pk) with
            | .panic => .panic
            | .err e => .err e
            | .ok x =>
              match optString (mapGet (gs! "curve_y") pk) with
              | .panic => .panic
              | .err e => .err e
              | .ok y => .ok (curve, x, y)

/-- The checks on the decoded registration (mfa_token.go:165-282). -/
def u2fFromRegister (p : MfaToken) (r : RegisterRequest) : Res MfaToken :=
  if r.id = [] then .err (.std .webAuthnEmptyRegisterID)
  else if r.type = [] then .err (.std .webAuthnEmptyRegisterKeyType)
  else if r.type ≠ gs! "public-key" then .err (.withV .webAuthnInvalidRegisterKeyType [r.type] [])
  else
    match checkTransports r.transports with
    | .err e => .err e
    | .panic => .panic
    | .ok _ =>
      match r.attestationObject with
      | none => .err (.std .webAuthnRegisterAttestationObjectNotFound)
      | some ao =>
        match ao.authData with
        | none => .err (.std .webAuthnRegisterAuthDataNotFound)
        | some ad =>
          if ad.relyingPartyID = [] then .err (.std .webAuthnRegisterEmptyRelyingPartyID)
          else
            match ad.flags with
            | none => .err (.std .webAuthnRegisterEmptyFlags)
            | some flags =>
              match ad.credentialData with
              | none => .err (.std .webAuthnRegisterCredentialDataNotFound)
              | some cd =>
                match cd.publicKey with
                | none => .err (.std .webAuthnRegisterPublicKeyNotFound)
                | some pk =>
                  match checkCoseKey pk with
                  | .err e => .err e
                  | .panic => .panic
                  | .ok (curve, x, y) =>
                    .ok { p with
                      flags := flags
                      signatureCounter := ad.signatureCounter
                      parameters :=
                        mapInsert (gs! "curve_ycoord") y <| mapInsert (gs! "curve_xcoord") x <|
                        mapInsert (gs! "curve_type") curve <| mapInsert (gs! "key_algo") (gs! "es256") <|
                        mapInsert (gs! "key_type") (gs! "ec2") <|
                        mapInsert (gs! "u2f_transports") (joinWith [44] r.transports) <|
                        mapInsert (gs! "u2f_type") r.type <| mapInsert (gs! "u2f_id") r.id <|
                        mapInsert (gs! "rp_id_hash") ad.relyingPartyID [] }

/-- The U2F part of `NewMfaToken` (mfa_token.go:145-282). -/
def newU2F (p : MfaToken) (w : ReqWebAuthn) : Res MfaToken :=
  if w.register = [] then .err (.std .webAuthnRegisterNotFound)
  else if w.challenge = [] then .err (.std .webAuthnChallengeNotFound)
  else
    match b64Decode w.register with
    | none => .err (.withE .webAuthnParse [] (.ext (gs! "base64")))
    | some decoded =>
      match unmarshal registerRequestFields RegisterRequest.zero decoded with
      | .err e => .err (.withE .webAuthnParse [] e)
      | .panic => .panic
      | .ok r => u2fFromRegister { p with secret := w.challenge } r

/-- `NewMfaToken` (mfa_token.go:98-292): the token and the request with its algorithm field normalised. -/
def newMfaToken (nd : Nondet) (req : Request) : Res MfaToken × Request :=
  let m := req.mfaToken
  let p : MfaToken :=
    { MfaToken.zero with
      id := getRandomString nd.seedRand 0 40
      createdAt := nd.now 0
      comment := m.comment
      type := m.type
      disabled := m.disabled
      disabledAt := if m.disabled then nd.now 1 else .zero }
  if m.type = gs! "totp" then
    let (r, alg) := newTotp nd p m
    (r, { req with mfaToken := { m with algorithm := alg } })
  else if m.type = gs! "u2f" then (newU2F p req.webAuthn, req)
  else if m.type = [] then (.err (.std .mfaTokenTypeEmpty), req)
  else (.err (.withV .mfaTokenInvalidType [m.type] []), req)

/-! ## WebAuthn authentication -/

/-- Value of a big-endian byte string (`big.Int.SetBytes`, `binary.BigEndian.Uint32`). -/
def beVal (bs : GoString) : Nat := bs.foldl (fun n b => n * 256 + b.toNat) 0

/-- `derivePublicKey` (mfa_token.go:509-538): the curve point (X, Y).  The result is cached in `p.pubkey`; as parameters never
change after creation, recomputing it is the same. -/
def derivePublicKey (params : List (GoString × GoString)) : Res (Nat × Nat) :=
  match mapGet (gs! "curve_xcoord") params, mapGet (gs! "curve_ycoord") params, mapGet (gs! "key_algo") params with
  | some x, some y, some algo =>
    match b64Decode x with
    | none => .err (.withE .webAuthnRegisterPublicKeyCurveCoord [gs! "x"] (.ext (gs! "base64")))
    | some xb =>
      if xb.length ≠ 32 then .err (.withV .webAuthnRegisterPublicKeyCurveCoord [gs! "x", gs! "not 32 bytes in length"] [])
      else
        match b64Decode y with
        | none => .err (.withE .webAuthnRegisterPublicKeyCurveCoord [gs! "y"] (.ext (gs! "base64")))
        | some yb =>
          if yb.length ≠ 32 then
            .err (.withV .webAuthnRegisterPublicKeyCurveCoord [gs! "y", gs! "not 32 bytes in length"] [])
          else if algo = gs! "es256" then .ok (beVal xb, beVal yb)
          else .err (.withV .webAuthnRegisterPublicKeyAlgorithmUnsupported [algo] [])
  | none, _, _ => .err (.withV .webAuthnRequest [gs! "curve_xcoord not found"] [])
  | _, none, _ => .err (.withV .webAuthnRequest [gs! "curve_ycoord not found"] [])
  | _, _, none => .err (.withV .webAuthnRequest [gs! "key_algo not found"] [])

/-- `fmt.Sprintf("%x", b)`. -/
def hexBytes (bs : GoString) : GoString := bs.flatMap fun b => [hexDigit (b.toNat / 16), hexDigit (b.toNat % 16)]

/-- The flag names and masks (mfa_token.go:547-559). -/
def flagMasks : List (GoString × UInt8) :=
  [(gs! "UP", 0x01), (gs! "RFU1", 0x02), (gs! "UV", 0x04), (gs! "RFU2a", 0x08), (gs! "RFU2b", 0x10),
   (gs! "RFU2c", 0x20), (gs! "AT", 0x40), (gs! "ED", 0x80)]

/-- `unpackAuthData` (mfa_token.go:540-575). -/
def unpackAuthData (b : GoString) : Res AuthData :=
  if b.length < 37 then .err (.ext (gs! "auth data is less than 37 bytes long"))
  else
    let fb := b.getD 32 0
    .ok { AuthData.zero with
      relyingPartyID := hexBytes (b.take 32)
      flags := some (flagMasks.foldl (fun m kv => mapInsert kv.1 ((fb &&& kv.2) == kv.2) m) [])
      signatureCounter := beVal ((b.drop 33).take 4) }

/-! Messages of `WebAuthnRequest` (mfa_token.go:295-428). -/
def WaMsg.tokenType : GoString := gs! "unsupported token type"
def WaMsg.noId : GoString := gs! "u2f_id not found"
def WaMsg.noKeyType : GoString := gs! "key_type not found"
def WaMsg.keyType : GoString := gs! "unsupported key type"
def WaMsg.keyId : GoString := gs! "key id mismatch"
def WaMsg.clientEmpty : GoString := gs! "encoded client data is empty"
def WaMsg.clientDecode : GoString := gs! "failed to decode client data"
def WaMsg.sigEmpty : GoString := gs! "encoded signature is empty"
def WaMsg.sigDecode : GoString := gs! "failed to decode signature"
def WaMsg.authEmpty : GoString := gs! "encoded authenticator data is empty"
def WaMsg.authDecode : GoString := gs! "failed to decode auth data"
def WaMsg.clientType : GoString := gs! "client data type is not webauthn.get"
def WaMsg.crossOrigin : GoString := gs! "client data cross origin true is not supported"
def WaMsg.rpIdHash : GoString := gs! "rpIdHash mismatch"
def WaMsg.userPresent : GoString := gs! "authData User Present bit is not set"
def WaMsg.algo : GoString := gs! "failed signature verification due to unsupported algo"
def WaMsg.clientJson : GoString := gs! "failed to unmarshal client data"

/-- An error of `WebAuthnRequest`. -/
def waErr {α : Type} (s : GoString) : Res α := .err (.withV .webAuthnRequest [s] [])

/-- `MfaToken.WebAuthnRequest` (mfa_token.go:295-428).  On failure Go also returns the partially decoded request, which the
only caller (user.go:297-300) ignores. -/
def webAuthnRequest (p : MfaToken) (payload : GoString) : Res AuthenticateRequest :=
  if p.type ≠ gs! "u2f" then waErr WaMsg.tokenType
  else
    match mapGet (gs! "u2f_id") p.parameters, mapGet (gs! "key_type") p.parameters with
    | none, _ => waErr WaMsg.noId
    | some _, none => waErr WaMsg.noKeyType
    | some u2fID, some keyType =>
      if keyType ≠ gs! "ec2" then waErr WaMsg.keyType
      else
        match derivePublicKey p.parameters with
        | .err e => .err e
        | .panic => .panic
        | .ok (kx, ky) =>
          match b64Decode payload with
          | none => .err (.withE .webAuthnParse [] (.ext (gs! "base64")))
          | some decoded =>
            match unmarshal authenticateRequestFields AuthenticateRequest.zero decoded with
            | .err e => .err (.withE .webAuthnParse [] e)
            | .panic => .panic
            | .ok r =>
              if u2fID ≠ r.id then waErr WaMsg.keyId
              else if trimSpace r.clientDataEncoded = [] then waErr WaMsg.clientEmpty
              else
                match b64Decode r.clientDataEncoded with
                | none => waErr WaMsg.clientDecode
                | some cdBytes =>
                  match unmarshal clientDataFields ClientData.zero cdBytes with
                  | .err _ => .err (.withV .webAuthnParse [WaMsg.clientJson] [])
                  | .panic => .panic
                  | .ok cd =>
                    if trimSpace r.signatureEncoded = [] then waErr WaMsg.sigEmpty
                    else
                      match b64Decode r.signatureEncoded with
                      | none => waErr WaMsg.sigDecode
                      | some sig =>
                        if trimSpace r.authDataEncoded = [] then waErr WaMsg.authEmpty
                        else
                          match b64Decode r.authDataEncoded with
                          | none => waErr WaMsg.authDecode
                          | some adBytes =>
                            match unpackAuthData adBytes with
                            | .err e => .err (.withE .webAuthnRequest [] e)
                            | .panic => .panic
                            | .ok ad =>
                              if cd.type ≠ gs! "webauthn.get" then waErr WaMsg.clientType
                              else if cd.crossOrigin then waErr WaMsg.crossOrigin
                              else if ad.relyingPartyID ≠ (mapGet (gs! "rp_id_hash") p.parameters).getD [] then
                                waErr WaMsg.rpIdHash
                              else if (mapGet (gs! "UP") (ad.flags.getD [])).getD false ≠ true then
                                waErr WaMsg.userPresent
                              else if (mapGet (gs! "key_algo") p.parameters).getD [] = gs! "es256" then
                                if ecdsaVerify kx ky (adBytes ++ Sha.sha256 cdBytes) sig then
                                  .ok { r with
                                    clientData := some cd, clientDataEncoded := [], signatureEncoded := []
                                    authData := some ad }
                                else .err (.withE .webAuthnRequest [] (.ext (gs! "signature")))
                              else waErr WaMsg.algo

/-- `unpackWebAuthnRequest` (webauthn.go:106-116). -/
def unpackWebAuthnRequest (s : GoString) : Res AuthenticateRequest :=
  match b64Decode s with
  | none => .err (.withE .webAuthnParse [] (.ext (gs! "base64")))
  | some decoded =>
    match unmarshal authenticateRequestFields AuthenticateRequest.zero decoded with
    | .err e => .err (.withE .webAuthnParse [] e)
    | .panic => .panic
    | .ok r => .ok r

/-- `MfaToken.Disable` (mfa_token.go:431-436).  It has no caller. -/
def MfaToken.disable (now : Clock) (p : MfaToken) : MfaToken :=
  { p with expired := true, expiredAt := now 0, disabled := true, disabledAt := now 1 }

end GoIdentity
