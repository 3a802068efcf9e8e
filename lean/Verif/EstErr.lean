/-!
# The error codes of the library

Source: `/repo/src/est/est.h` lines 83-190 (`FOREACH_EST_ERROR`, `EST_ERROR`).
-/
namespace Verif

/-- `EST_ERROR`, `est.h` lines 83-190.  `EST_ERR_FOO_BAR` is called `fooBar`. -/
inductive EstErr
  | none | noCtx | noCsr | noCert | noKey | invalidParameters | loadCacerts | loadTrustCerts
  | badMode | badPkcs10 | httpWrite | httpUnsupported | httpCannotBuildHeader | httpBadReq
  | httpNotFound | httpNoContent | httpLocked | httpInvalidPathSegment
  | httpPathSegmentNotSupported | badContentType | badContentLen | noSslCtx | authFail
  | authFailTlsuid | authPending | caEnrollFail | caEnrollRetry | wrongMethod | x509Sign
  | x509Ver | x509Cn | x509Attr | x509Pubkey | malloc | sslWrite | sslRead | sslNew | sslCtxNew
  | sslConnect | sslCipherList | pemRead | nullCallback | ipGetaddr | ipConnect
  | invalidServerName | invalidPortNum | clientInvalidKey | clientNotInitialized | zeroLengthBuf
  | readBufferTooSmall | bufExceedsMaxLen | noCertificate | noCertsFound | fqdnMismatch
  | syscall | alreadyEnabled | alreadyDisabled | csrAlreadySigned | csrAttrMissing
  | invalidDigest | cacertVerification | invalidToken | invalidRetryValue | badX509 | badBase64
  | badAsn1Hex | badAsn1HexTooShort | badAsn1HexTooLong | srpStrengthLow | srpUseridBad
  | srpPwdBad | cbFailed | clientProxyModeNotSupported | invalidClientProxyProtocol
  | invalidClientProxyAuth | clientBrskiModeNotSupported | clientCoapModeNotSupported
  | clientBrskiNoVoucher | clientBrskiNonceMissing | clientBrskiNonceMismatch
  | clientBrskiNonceTooLarge | clientBrskiSerialNumMissing | clientBrskiSerialNumMismatch
  | clientBrskiSerialNumTooLarge | clientBrskiVoucherVerifyFailed | badKey | multipartParse
  | encPrivKeyCms | cmsTypeConversion | exportKeyMaterial | validation | coapInitFail
  | coapProcessingError | serverAlreadyOperational | unknown
deriving DecidableEq, Repr

end Verif
