import Verif.Lemmas.Settings

/-!
# Signatures (C104)
-/

namespace PptRs.Settings

open PptRs PptRs.Spec

theorem plain_hash (a : HashAlgorithm) : Plain a.uri := by cases a <;> exact plain_of (by decide)
theorem plain_commitment (a : Commitment) : Plain a.uri := by cases a <;> exact plain_of (by decide)
theorem plain_label (a : Commitment) : Plain a.label := by cases a <;> exact plain_of (by decide)

/-- The comments of a signature. -/
def commentNodes (s : Signature) : List Node := s.comments.toList.flatMap fun c => [E c!"SignatureComments" [] (addText [] c)]

/-- A signature. -/
def signatureNode (s : Signature) : Node :=
  E c!"Signature" [(c!"xmlns", c!"http://www.w3.org/2000/09/xmldsig#")] [
    E c!"SignedInfo" [] [
      E c!"CanonicalizationMethod" [(c!"Algorithm", c!"http://www.w3.org/TR/2001/REC-xml-c14n-20010315")] [],
      E c!"SignatureMethod" [(c!"Algorithm", s.hash.uri)] []],
    E c!"SignatureValue" [] [],
    E c!"KeyInfo" [] [E c!"KeyName" [] (addText [] s.name)],
    E c!"Object" [] [E c!"SignatureProperties" [] [E c!"SignatureProperty" [(c!"Target", c!"#SignatureInfo")] [
      E c!"SignatureInfoV1" [(c!"xmlns", c!"http://schemas.microsoft.com/office/2006/digsig")]
        ([E c!"SetupID" [] [], E c!"SignatureText" [] (addText [] s.name)] ++ commentNodes s
          ++ [E c!"SignatureType" [] [.text c!"1"]] ++ [E c!"SignatureProviderUrl" [] []]
          ++ [E c!"SignatureProviderDetails" [] [.text c!"9"]] ++ [E c!"ManifestHashAlgorithm" [] (addText [] s.hash.uri)]
          ++ [E c!"SignatureProviderId" [] [.text c!"{{00000000-0000-0000-0000-000000000000}}"]]
          ++ [E c!"CommitmentTypeId" [] (addText [] s.commitment.uri)]
          ++ [E c!"CommitmentTypeQualifier" [] (addText [] s.commitment.label)]
          ++ [E c!"SigningTime" [] (addText [] s.when)])]]]]

theorem document_signature {s : Signature} (h : Plain s.when) : document (signatureText s) = some [signatureNode s] := by
  refine document_tight ?_ ⟨_, rfl⟩
  have hc : ReadsNodes (whenSome s.comments fun c => t!"<SignatureComments>{.esc c}</SignatureComments>") (commentNodes s) :=
    readsNodes_whenSome fun c _ => (Splits.lit (by parts_ok)).readsNodes (by krfl)
  have h1 := plain_hash s.hash
  have h2 := plain_commitment s.commitment
  have h3 := plain_label s.commitment
  unfold signatureBody signatureNode
  generalize s.when = x1 at *
  generalize s.hash.uri = x2 at *
  generalize s.commitment.uri = x3 at *
  generalize s.commitment.label = x4 at *
  generalize commentNodes s = x5 at *
  exact (((Splits.lit (by parts_ok)).append (.nodes hc)).append (.lit (by parts_ok))).readsNodes (by krfl)

end PptRs.Settings

namespace PptRs.Props

open PptRs PptRs.Spec PptRs.Settings

/-- The part of a signature with its properties. -/
def infoPath : List Str := [c!"Object", c!"SignatureProperties", c!"SignatureProperty", c!"SignatureInfoV1"]

/-- The texts of the elements on a path. -/
def pathTexts (p : List Str) (k : Node) : List Str := (path p k).map fun x => textOf (kidsOf x)

theorem textOf_pending (t : Str) : textOf (addText [] t) = t := by
  rw [addText_eq]
  unfold textNode
  split
  · rename_i h
    rw [h]
    rfl
  · simp [textOf]

/-- **C104.** A signature part is read back with the name of the signer, the comments, the kind of commitment and the
date. What is missing: the other details of the signer, the signature itself, and dates with markup (see the theorems
below). -/
theorem C104_partial {s : Signature} (h : ∀ d, s.date = some d → Plain d) :
    ∃ k, document (signatureText s) = some [k] ∧ pathTexts [c!"KeyInfo", c!"KeyName"] k = [s.name] ∧
      pathTexts (infoPath ++ [c!"SignatureText"]) k = [s.name] ∧
      pathTexts (infoPath ++ [c!"SignatureComments"]) k = s.comments.toList ∧
      pathTexts (infoPath ++ [c!"CommitmentTypeId"]) k = [s.commitment.uri] ∧
      ∀ d, s.date = some d → pathTexts (infoPath ++ [c!"SigningTime"]) k = [d] := by
  have hw : Plain s.when := by
    unfold Signature.when
    cases e : s.date with
    | none => exact plain_of (by decide)
    | some d => exact h d e
  obtain ⟨name, email, org, title, hash, date, commitment, comments⟩ := s
  refine ⟨_, document_signature hw, ?_, ?_, ?_, ?_, ?_⟩
  · rw [show pathTexts [c!"KeyInfo", c!"KeyName"] (signatureNode _) = [textOf (addText [] name)] by krfl, textOf_pending]
  · have e : pathTexts (infoPath ++ [c!"SignatureText"]) (signatureNode ⟨name, email, org, title, hash, date, commitment, comments⟩)
        = [textOf (addText [] name)] := by cases comments <;> krfl
    rw [e, textOf_pending]
  · cases comments with
    | none => krfl
    | some c =>
      rw [show pathTexts (infoPath ++ [c!"SignatureComments"]) (signatureNode _) = [textOf (addText [] c)] by krfl, textOf_pending]
      rfl
  · have e : pathTexts (infoPath ++ [c!"CommitmentTypeId"]) (signatureNode ⟨name, email, org, title, hash, date, commitment, comments⟩)
        = [textOf (addText [] commitment.uri)] := by cases comments <;> krfl
    rw [e, textOf_pending]
  · intro d hd
    have hd' : date = some d := hd
    subst hd'
    have e : pathTexts (infoPath ++ [c!"SigningTime"]) (signatureNode ⟨name, email, org, title, hash, some d, commitment, comments⟩)
        = [textOf (addText [] d)] := by cases comments <;> krfl
    rw [e, textOf_pending]

/-- The address of a kind of commitment (ETSI TS 101 903, 7.2.6). -/
theorem C104_commitments : Commitment.created.uri = c!"http://uri.etsi.org/01903/v1.2.2#ProofOfCreation" ∧
    Commitment.approved.uri = c!"http://uri.etsi.org/01903/v1.2.2#ProofOfApproval" ∧ Commitment.created.uri ≠ Commitment.approved.uri ∧
    Commitment.reviewed.uri ≠ Commitment.created.uri ∧ Commitment.reviewed.uri ≠ Commitment.approved.uri := by
  refine ⟨rfl, rfl, ?_, ?_, ?_⟩ <;> decide

/-- **C104 does not hold for the details of the signer**: the e-mail address, the organization and the title of the
signer have no effect on the signature part. -/
theorem C104_signer_violated (s : Signature) (email organization title : Option Str) :
    signatureText { s with email, organization, title } = signatureText s := rfl

/-- **C104 does not hold for the signature itself**: `SignatureValue` is empty and nothing is referred to, so no part
of the presentation is signed. -/
theorem C104_unsigned_violated {s : Signature} (h : Plain s.when) : ∃ k, document (signatureText s) = some [k] ∧
    pathTexts [c!"SignatureValue"] k = [[]] ∧ path [c!"SignedInfo", c!"Reference"] k = [] :=
  ⟨_, document_signature h, by krfl, by krfl⟩

/-- Addresses of signature methods (XML Signature 6.4 and RFC 6931 2.3). -/
def signatureMethods : List Str :=
  [c!"http://www.w3.org/2000/09/xmldsig#dsa-sha1", c!"http://www.w3.org/2000/09/xmldsig#rsa-sha1",
   c!"http://www.w3.org/2001/04/xmldsig-more#rsa-sha256", c!"http://www.w3.org/2001/04/xmldsig-more#rsa-sha384",
   c!"http://www.w3.org/2001/04/xmldsig-more#rsa-sha512", c!"http://www.w3.org/2001/04/xmldsig-more#ecdsa-sha1",
   c!"http://www.w3.org/2001/04/xmldsig-more#ecdsa-sha256", c!"http://www.w3.org/2001/04/xmldsig-more#ecdsa-sha384",
   c!"http://www.w3.org/2001/04/xmldsig-more#ecdsa-sha512"]

/-- **C104 does not hold for the signature method**: the method is given as the address of a hash function, which
is not a signature method. -/
theorem C104_method_violated {s : Signature} (h : Plain s.when) : ∃ k, document (signatureText s) = some [k] ∧
    ∃ m, pathAttr [c!"SignedInfo", c!"SignatureMethod"] c!"Algorithm" k = some m ∧ m ∉ signatureMethods :=
  ⟨_, document_signature h, s.hash.uri, by krfl, by cases s.hash <;> decide⟩

/-- **C104 does not hold for the provider**: the id of the signature provider is written with two braces on each side,
because the braces are doubled twice in the format string; it is not a GUID. -/
theorem C104_provider_violated {s : Signature} (h : Plain s.when) : ∃ k, document (signatureText s) = some [k] ∧
    pathTexts (infoPath ++ [c!"SignatureProviderId"]) k = [c!"{{00000000-0000-0000-0000-000000000000}}"] := by
  refine ⟨_, document_signature h, ?_⟩
  obtain ⟨_, _, _, _, _, _, _, c⟩ := s
  cases c <;> krfl

/-- **C104 does not hold for every date**: it is written without escaping, so a date with an ampersand makes the part
unreadable. -/
theorem C104_date_violated : document (signatureText { name := c!"A", date := some c!"&" }) = none := by decide +kernel

/-- The theorem applies to a name with markup. -/
example : ∃ k, document (signatureText { name := c!"A & <B>", comments := some c!"ok" }) = some [k] ∧
    pathTexts [c!"KeyInfo", c!"KeyName"] k = [c!"A & <B>"] := by
  obtain ⟨k, h1, h2, _⟩ := C104_partial (s := { name := c!"A & <B>", comments := some c!"ok" }) (by simp)
  exact ⟨k, h1, h2⟩

end PptRs.Props
