import Verif.Base.Json
import Mathlib.Data.List.Forall2

/-!
Documents that differ in members a type does not know, at any depth. For each type: its members and what is in them.
-/

namespace Oid4vci.Spec

/-- Two documents are alike in some respect. -/
abbrev Likeness := Json → Json → Prop

/-- What the table says about the name. -/
def about (name : Str) : List (Str × Likeness) → Option Likeness
  | [] => none
  | (k, R) :: fs => if k = name then some R else about name fs

/-- Without the members that are not in the table, these are the same names in the same order with values that are alike. -/
def KnownMembers (fs : List (Str × Likeness)) (kvs kvs' : List (Str × Json)) : Prop :=
  List.Forall₂ (fun m m' => m.1 = m'.1 ∧ ∃ R, about m.1 fs = some R ∧ R m.2 m'.2)
    (kvs.filter fun m => (about m.1 fs).isSome) (kvs'.filter fun m => (about m.1 fs).isSome)

/-- Objects of a type that has the members of the table. -/
inductive KnownObject (fs : List (Str × Likeness)) : Likeness
  | same (j : Json) : KnownObject fs j j
  | members (kvs kvs' : List (Str × Json)) : KnownMembers fs kvs kvs' → KnownObject fs (.obj kvs) (.obj kvs')

/-- Arrays, element by element. -/
inductive Each (R : Likeness) : Likeness
  | same (j : Json) : Each R j j
  | elements (xs xs' : List Json) : List.Forall₂ R xs xs' → Each R (.arr xs) (.arr xs')

/-- Maps, entry by entry: every name means something. -/
inductive EachEntry (R : Likeness) : Likeness
  | same (j : Json) : EachEntry R j j
  | entries (kvs kvs' : List (Str × Json)) : List.Forall₂ (fun m m' => m.1 = m'.1 ∧ R m.2 m'.2) kvs kvs' →
      EachEntry R (.obj kvs) (.obj kvs')

/-- Display of a claim. -/
def claimDisplayAlike : Likeness := KnownObject [(str! "name", Eq), (str! "locale", Eq)]

/-- A claim. -/
def claimAlike : Likeness :=
  KnownObject [(str! "mandatory", Eq), (str! "valueType", Eq), (str! "display", Each claimDisplayAlike)]

/-- The members of a credential, of whatever format. -/
def credentialTable : List (Str × Likeness) :=
  [(str! "format", Eq), (str! "@context", Eq), (str! "types", Eq), (str! "credentialSubject", EachEntry claimAlike),
    (str! "doctype", Eq), (str! "claims", EachEntry claimAlike), (str! "order", Eq)]

/-- A credential. -/
def credentialAlike : Likeness := KnownObject credentialTable

/-- The entry of an offer for an authorization code. -/
def authorizedAlike : Likeness := KnownObject [(str! "issuer_state", Eq)]

/-- The entry for a pre-authorized code. -/
def preAuthorizedAlike : Likeness := KnownObject [(str! "pre-authorized_code", Eq), (str! "user_pin_required", Eq)]

/-- The grants of an offer. -/
def grantsAlike : Likeness :=
  KnownObject [(str! "authorization_code", authorizedAlike),
    (str! "urn:ietf:params:oauth:grant-type:pre-authorized_code", preAuthorizedAlike)]

/-- An offer. -/
def offerAlike : Likeness :=
  KnownObject [(str! "credential_issuer", Eq), (str! "credentials", Each credentialAlike), (str! "grants", grantsAlike)]

/-- A token response. -/
def tokenResponseAlike : Likeness :=
  KnownObject [(str! "access_token", Eq), (str! "token_type", Eq), (str! "expires_in", Eq), (str! "scope", Eq),
    (str! "c_nonce", Eq), (str! "c_nonce_expires_in", Eq), (str! "authorization_pending", Eq), (str! "interval", Eq)]

/-- The grant of a token request. -/
def grantAlike : Likeness := KnownObject [(str! "grant_type", Eq), (str! "pre_authorized_code", Eq), (str! "user_pin", Eq)]

/-- A token request. -/
def tokenRequestAlike : Likeness := KnownObject [(str! "grant_type", grantAlike)]

/-- The proof of a credential request. -/
def proofAlike : Likeness := KnownObject [(str! "proof_type", Eq), (str! "jwt", Eq)]

/-- A credential request: the proof, and the members of the credential. -/
def requestAlike : Likeness := KnownObject ((str! "proof", proofAlike) :: credentialTable)

/-- A credential response; the credential is in an object of one member that tells its kind. -/
def responseAlike : Likeness :=
  KnownObject [(str! "format", Eq), (str! "credential", EachEntry credentialAlike), (str! "acceptance_token", Eq),
    (str! "c_nonce", Eq), (str! "c_nonce_expires_in", Eq)]

/-- The object around the credential in a response. -/
def carriedAlike : Likeness := KnownObject [(str! "Encoded", Eq), (str! "CredentialFormatProfile", credentialAlike)]

/-- A logo. -/
def logoAlike : Likeness := KnownObject [(str! "url", Eq), (str! "alt_text", Eq)]

/-- Display of a credential. -/
def displayAlike : Likeness :=
  KnownObject [(str! "name", Eq), (str! "locale", Eq), (str! "logo", logoAlike), (str! "description", Eq),
    (str! "background_color", Eq), (str! "text_color", Eq)]

/-- A supported credential. -/
def supportedAlike : Likeness :=
  KnownObject ((str! "id", Eq) :: (str! "cryptographic_binding_mehtods_supported", Eq) ::
    (str! "cryptographic_suites_supported", Eq) :: (str! "display", Each displayAlike) :: credentialTable)

/-- Issuer metadata. -/
def metadataAlike : Likeness :=
  KnownObject [(str! "credential_issuer", Eq), (str! "authorization_server", Eq), (str! "credential_endpoint", Eq),
    (str! "batch_credential_endpoint", Eq), (str! "credentials_supported", Each supportedAlike)]

/-- The header of a proof. -/
def headerAlike : Likeness :=
  KnownObject [(str! "typ", Eq), (str! "alg", Eq), (str! "kid", Eq), (str! "jwk", Eq), (str! "x5c", Eq)]

/-- The body of a proof. -/
def bodyAlike : Likeness :=
  KnownObject [(str! "iss", Eq), (str! "aud", Eq), (str! "sub", Eq), (str! "iat", Eq), (str! "nonce", Eq), (str! "nbf", Eq),
    (str! "exp", Eq)]

/-- The nonce the application has stored. -/
def storedNonceAlike : Likeness :=
  KnownObject [(str! "c_nonce_expires_in", Eq), (str! "expected_c_nonce", Eq), (str! "c_nonce_created_at", Eq)]

/-- The application's settings for a credential request. -/
def requestSettingsAlike : Likeness := KnownObject [(str! "c_nonce", storedNonceAlike), (str! "client_id", Eq)]

/-- The application's settings for a token request. -/
def tokenSettingsAlike : Likeness := KnownObject [(str! "expected_user_pin", Eq)]

/-- A nonce for the next request. -/
def nonceAlike : Likeness := KnownObject [(str! "c_nonce", Eq), (str! "c_nonce_expires_in", Eq)]

/-- Metadata of an authorization server: nothing is known of it. -/
def serverAlike : Likeness := KnownObject []

/-- A proof as a document. -/
def jwtAlike : Likeness := KnownObject [(str! "header", headerAlike), (str! "body", bodyAlike), (str! "signature", Eq)]

end Oid4vci.Spec
