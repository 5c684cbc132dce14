import Verif.Model.Types
/-!
# credit_card.go, credit_card_association.go, credit_card_issuer.go
-/
namespace GoIdentity
variable [Ext]

/-- credit_card_association.go:63-68 -/
structure CreditCardAssociation where
  name : GoString
  aliases : List GoString
  codeName : GoString
  codeFormat : GoString
  deriving DecidableEq, Repr

/-- credit_card_issuer.go:21-24 -/
structure CreditCardIssuer where
  name : GoString
  aliases : List GoString
  deriving DecidableEq, Repr

/-- credit_card.go:24-31 -/
structure CreditCard where
  number : GoString
  issuer : Option CreditCardIssuer
  association : Option CreditCardAssociation
  code : GoString
  expiresAt : GoTime
  issuedAt : GoTime
  deriving DecidableEq, Repr

/-- `CreditCardAssociations` (credit_card_association.go:18-59). -/
def creditCardAssociations : List CreditCardAssociation :=
  [⟨gs! "American Express", [gs! "amex", gs! "AMEX"], gs! "CID", gs! "NNNN"⟩,
   ⟨gs! "Diners Club", [gs! "diners"], gs! "Security Code", gs! "NNN"⟩,
   ⟨gs! "Discover", [gs! "discover"], gs! "CID", gs! "NNN"⟩,
   ⟨gs! "Mastercard", [gs! "mastercard"], gs! "CVC2", gs! "NNN"⟩,
   ⟨gs! "Visa", [gs! "visa"], gs! "CVC2", gs! "NNN"⟩]

/-- `CreditCardIssuers` (credit_card_issuer.go:18). -/
def creditCardIssuers : List CreditCardIssuer := []

/-- `NewCreditCard` (credit_card.go:34-36). -/
def CreditCard.new : CreditCard := ⟨[], none, none, [], .zero, .zero⟩

/-- Whether an issuer answers to `s` (credit_card.go:42-51). -/
def CreditCardIssuer.answersTo (s : GoString) (i : CreditCardIssuer) : Bool :=
  s == i.name || s == toLower i.name || i.aliases.any fun a => s == a || s == toLower a

/-- `AddIssuer` (credit_card.go:39-54). -/
def CreditCard.addIssuer (table : List CreditCardIssuer) (s : GoString) (cc : CreditCard) : CreditCard × Option GoErr :=
  match table.find? (CreditCardIssuer.answersTo s) with
  | some i => ({ cc with issuer := some i }, none)
  | none => (cc, some (.withV .creditCardUnsupportedIssuer [s] []))

/-- `AddAssociation` (credit_card.go:58-66). -/
def CreditCard.addAssociation (s : GoString) (cc : CreditCard) : CreditCard × Option GoErr :=
  match creditCardAssociations.find? (fun a => s == a.name) with
  | some a => ({ cc with association := some a }, none)
  | none => (cc, some (.withV .creditCardUnsupportedAssociation [s] []))

end GoIdentity
