import Verif.Conformance.Harness

/-! # The tests of token_endpoint_code_test.go, replayed -/

namespace Goidc.Conformance

/-- token_endpoint_code_test.go:14 `TestTokenEndpointAuthorizationCodePKCE` -/
example : tokenTest
    [.createUser b!"user01" b!"pass01",
     .createClient 0 b!"client_id_01" b!"client_secret_01" b!"http://example.org/callback",
     .allow 0 Grant.typeAuthorizationCode]
    [.config (.support Grant.typeAuthorizationCode (Grant.authorizationCode lib)),
     .authInfo 0 b!"client_id_01" b!"openid profile offline_access",
     .session { redirectURI := b!"http://example.org/callback", code := b!"code_value", codeVerifier := b!"dBjftJeZ4CVP-mB92K27uhbUJU1p1r_wW1gFWFOEjXk", expiresIn := 86400, nonce := b!"07dfa90f", authTime := clock },
     .request [(b!"grant_type", b!"authorization_code"), (b!"code", b!"code_value"), (b!"redirect_uri", b!"http://example.org/callback"), (b!"code_challenge", b!"E9Melhoa2OwvFrEMTJguCHaoeK1t8URWbuGJSstw-cM")]
      [(b!"Content-Type", b!"application/x-www-form-urlencoded; charset=UTF-8"), (b!"Authorization", (BasicAuth.header b!"client_id_01" b!"client_secret_01"))] 400
      [(b!"Content-Type", b!"application/json; charset=UTF-8"), (b!"Pragma", b!"no-cache"), (b!"Cache-Control", b!"no-store")]
      [(b!"error", .str b!"invalid_request"), (b!"error_description", .str b!"missing 'code_challenge_method' parameter")] none,
     .request [(b!"grant_type", b!"authorization_code"), (b!"code", b!"code_value"), (b!"redirect_uri", b!"http://example.org/callback"), (b!"code_challenge_method", b!"plain")]
      [(b!"Content-Type", b!"application/x-www-form-urlencoded; charset=UTF-8"), (b!"Authorization", (BasicAuth.header b!"client_id_01" b!"client_secret_01"))] 400
      [(b!"Content-Type", b!"application/json; charset=UTF-8"), (b!"Pragma", b!"no-cache"), (b!"Cache-Control", b!"no-store")]
      [(b!"error", .str b!"invalid_request"), (b!"error_description", .str b!"missing 'code_challenge' parameter")] none,
     .request [(b!"grant_type", b!"authorization_code"), (b!"code", b!"code_value"), (b!"redirect_uri", b!"http://example.org/callback"), (b!"code_challenge_method", b!"unknown"), (b!"code_challenge", b!"E9Melhoa2OwvFrEMTJguCHaoeK1t8URWbuGJSstw-cM")]
      [(b!"Content-Type", b!"application/x-www-form-urlencoded; charset=UTF-8"), (b!"Authorization", (BasicAuth.header b!"client_id_01" b!"client_secret_01"))] 400
      [(b!"Content-Type", b!"application/json; charset=UTF-8"), (b!"Pragma", b!"no-cache"), (b!"Cache-Control", b!"no-store")]
      [(b!"error", .str b!"invalid_request"), (b!"error_description", .str b!"unsupported 'code_challenge_method': 'unknown'")] none,
     .request [(b!"grant_type", b!"authorization_code"), (b!"code", b!"code_value"), (b!"redirect_uri", b!"http://example.org/callback"), (b!"code_challenge_method", b!"S256"), (b!"code_challenge", b!"A9Melhoa2OwvFrEMTJguCHaoeK1t8URWbuGJSstw-cM")]
      [(b!"Content-Type", b!"application/x-www-form-urlencoded; charset=UTF-8"), (b!"Authorization", (BasicAuth.header b!"client_id_01" b!"client_secret_01"))] 400
      [(b!"Content-Type", b!"application/json; charset=UTF-8"), (b!"Pragma", b!"no-cache"), (b!"Cache-Control", b!"no-store")]
      [(b!"error", .str b!"invalid_grant"), (b!"error_description", .str b!"invalid 'code_challenge': 'A9Melhoa2OwvFrEMTJguCHaoeK1t8URWbuGJSstw-cM'")] none,
     .request [(b!"grant_type", b!"authorization_code"), (b!"code", b!"code_value"), (b!"redirect_uri", b!"http://example.org/callback"), (b!"code_challenge_method", b!"S256"), (b!"code_challenge", b!"E9Melhoa2OwvFrEMTJguCHaoeK1t8URWbuGJSstw-cM")]
      [(b!"Content-Type", b!"application/x-www-form-urlencoded; charset=UTF-8"), (b!"Authorization", (BasicAuth.header b!"client_id_01" b!"client_secret_01"))] 200
      [(b!"Content-Type", b!"application/json; charset=UTF-8"), (b!"Pragma", b!"no-cache"), (b!"Cache-Control", b!"no-store")]
      [(b!"access_token", .str b!"ACCESS_TOKEN_0"), (b!"refresh_token", .str b!"REFRESH_TOKEN_0"), (b!"expires_in", .int 86400)] (some [(b!"iss", b!"http://example.org/"), (b!"sub", b!"0"), (b!"aud", b!"client_id_01")]),
     .session { redirectURI := b!"http://example.org/callback", code := b!"code_value", codeVerifier := b!"dBjftJeZ4CVP-mB92K27uhbUJU1p1r_wW1gFWFOEjXk", expiresIn := 86400, nonce := b!"07dfa90f", authTime := clock },
     .request [(b!"grant_type", b!"authorization_code"), (b!"code", b!"code_value"), (b!"redirect_uri", b!"http://example.org/callback"), (b!"code_challenge_method", b!"plain"), (b!"code_challenge", b!"dBjftJeZ4CVP-mB92K27uhbUJU1p1r_wW1gFWFOEjXk")]
      [(b!"Content-Type", b!"application/x-www-form-urlencoded; charset=UTF-8"), (b!"Authorization", (BasicAuth.header b!"client_id_01" b!"client_secret_01"))] 200
      [(b!"Content-Type", b!"application/json; charset=UTF-8"), (b!"Pragma", b!"no-cache"), (b!"Cache-Control", b!"no-store")]
      [(b!"access_token", .str b!"ACCESS_TOKEN_0"), (b!"refresh_token", .str b!"REFRESH_TOKEN_0"), (b!"expires_in", .int 86400)] (some [(b!"iss", b!"http://example.org/"), (b!"sub", b!"0"), (b!"aud", b!"client_id_01")])] = true := by
  decide +kernel

/-- token_endpoint_code_test.go:203 `TestTokenEndpointAuthorizationCodeInvalidRequest` -/
example : tokenTest
    [.createUser b!"user01" b!"pass01",
     .createClient 0 b!"client_id_01" b!"client_secret_01" b!"http://example.org/callback",
     .allow 0 Grant.typeAuthorizationCode]
    [.config (.support Grant.typeAuthorizationCode (Grant.authorizationCode lib)),
     .authInfo 0 b!"client_id_01" b!"openid profile offline_access",
     .session { redirectURI := b!"http://example.org/callback", code := b!"code_value", codeVerifier := b!"", expiresIn := 86400, nonce := b!"07dfa90f", authTime := clock },
     .request [(b!"grant_type", b!"authorization_code"), (b!"code", b!"code_value")]
      [(b!"Content-Type", b!"application/x-www-form-urlencoded; charset=UTF-8"), (b!"Authorization", (BasicAuth.header b!"client_id_01" b!"client_secret_01"))] 400
      [(b!"Content-Type", b!"application/json; charset=UTF-8"), (b!"Pragma", b!"no-cache"), (b!"Cache-Control", b!"no-store")]
      [(b!"error", .str b!"invalid_request"), (b!"error_description", .str b!"missing 'redirect_uri' parameter")] none,
     .request [(b!"grant_type", b!"authorization_code"), (b!"code", b!"code_value"), (b!"redirect_uri", b!"http://example.org/invalid")]
      [(b!"Content-Type", b!"application/x-www-form-urlencoded; charset=UTF-8"), (b!"Authorization", (BasicAuth.header b!"client_id_01" b!"client_secret_01"))] 400
      [(b!"Content-Type", b!"application/json; charset=UTF-8"), (b!"Pragma", b!"no-cache"), (b!"Cache-Control", b!"no-store")]
      [(b!"error", .str b!"invalid_grant")] none,
     .request [(b!"grant_type", b!"authorization_code"), (b!"redirect_uri", b!"http://example.org/callback")]
      [(b!"Content-Type", b!"application/x-www-form-urlencoded; charset=UTF-8"), (b!"Authorization", (BasicAuth.header b!"client_id_01" b!"client_secret_01"))] 400
      [(b!"Content-Type", b!"application/json; charset=UTF-8"), (b!"Pragma", b!"no-cache"), (b!"Cache-Control", b!"no-store")]
      [(b!"error", .str b!"invalid_request"), (b!"error_description", .str b!"missing 'code' parameter")] none,
     .request [(b!"grant_type", b!"authorization_code"), (b!"code", b!"invalid_code_value"), (b!"redirect_uri", b!"http://example.org/callback")]
      [(b!"Content-Type", b!"application/x-www-form-urlencoded; charset=UTF-8"), (b!"Authorization", (BasicAuth.header b!"client_id_01" b!"client_secret_01"))] 400
      [(b!"Content-Type", b!"application/json; charset=UTF-8"), (b!"Pragma", b!"no-cache"), (b!"Cache-Control", b!"no-store")]
      [(b!"error", .str b!"invalid_grant")] none] = true := by
  decide +kernel

/-- token_endpoint_code_test.go:312 `TestTokenEndpointAuthorizationCode` -/
example : tokenTest
    [.createUser b!"user01" b!"pass01",
     .createClient 0 b!"client_id_01" b!"client_secret_01" b!"http://example.org/callback",
     .allow 0 Grant.typeAuthorizationCode]
    [.config (.support Grant.typeAuthorizationCode (Grant.authorizationCode lib)),
     .config (.acceptClientSecret .fromAll),
     .authInfo 0 b!"client_id_01" b!"openid profile offline_access",
     .session { redirectURI := b!"http://example.org/callback", code := b!"code_value", codeVerifier := b!"", expiresIn := 86400, nonce := b!"07dfa90f", authTime := clock },
     .request [(b!"grant_type", b!"authorization_code"), (b!"code", b!"code_value"), (b!"redirect_uri", b!"http://example.org/callback")]
      [(b!"Content-Type", b!"application/x-www-form-urlencoded; charset=UTF-8"), (b!"Authorization", (BasicAuth.header b!"client_id_01" b!"client_secret_01"))] 200
      [(b!"Content-Type", b!"application/json; charset=UTF-8"), (b!"Pragma", b!"no-cache"), (b!"Cache-Control", b!"no-store")]
      [(b!"access_token", .str b!"ACCESS_TOKEN_0"), (b!"refresh_token", .str b!"REFRESH_TOKEN_0"), (b!"expires_in", .int 86400)] (some [(b!"iss", b!"http://example.org/"), (b!"sub", b!"0"), (b!"aud", b!"client_id_01")]),
     .session { redirectURI := b!"http://example.org/callback", code := b!"code_value", codeVerifier := b!"", expiresIn := 86400, nonce := b!"07dfa90f", authTime := clock },
     .request [(b!"grant_type", b!"authorization_code"), (b!"code", b!"code_value"), (b!"redirect_uri", b!"http://example.org/callback"), (b!"client_id", b!"client_id_01"), (b!"client_secret", b!"client_secret_01")]
      [(b!"Content-Type", b!"application/x-www-form-urlencoded; charset=UTF-8")] 200
      [(b!"Content-Type", b!"application/json; charset=UTF-8"), (b!"Pragma", b!"no-cache"), (b!"Cache-Control", b!"no-store")]
      [(b!"access_token", .str b!"ACCESS_TOKEN_0"), (b!"refresh_token", .str b!"REFRESH_TOKEN_0"), (b!"expires_in", .int 86400)] (some [(b!"iss", b!"http://example.org/"), (b!"sub", b!"0"), (b!"aud", b!"client_id_01")])] = true := by
  decide +kernel

/-- token_endpoint_code_test.go:401 `TestTokenEndpointAuthorizationCodeWithoutOfflineAccess` -/
example : tokenTest
    [.createUser b!"user01" b!"pass01",
     .createClient 0 b!"client_id_01" b!"client_secret_01" b!"http://example.org/callback",
     .allow 0 Grant.typeAuthorizationCode]
    [.config (.support Grant.typeAuthorizationCode (Grant.authorizationCode lib)),
     .authInfo 0 b!"client_id_01" b!"openid profile",
     .session { redirectURI := b!"http://example.org/callback", code := b!"code_value", codeVerifier := b!"", expiresIn := 86400, nonce := b!"07dfa90f", authTime := clock },
     .request [(b!"grant_type", b!"authorization_code"), (b!"code", b!"code_value"), (b!"redirect_uri", b!"http://example.org/callback")]
      [(b!"Content-Type", b!"application/x-www-form-urlencoded; charset=UTF-8"), (b!"Authorization", (BasicAuth.header b!"client_id_01" b!"client_secret_01"))] 200
      [(b!"Content-Type", b!"application/json; charset=UTF-8"), (b!"Pragma", b!"no-cache"), (b!"Cache-Control", b!"no-store")]
      [(b!"access_token", .str b!"ACCESS_TOKEN_0"), (b!"refresh_token", .absent), (b!"expires_in", .int 86400)] (some [(b!"iss", b!"http://example.org/"), (b!"sub", b!"0"), (b!"aud", b!"client_id_01")])] = true := by
  decide +kernel

/-- token_endpoint_code_test.go:451 `TestTokenEndpointAuthorizationCodeWithoutOpenID` -/
example : tokenTest
    [.createUser b!"user01" b!"pass01",
     .createClient 0 b!"client_id_01" b!"client_secret_01" b!"http://example.org/callback",
     .allow 0 Grant.typeAuthorizationCode]
    [.config (.support Grant.typeAuthorizationCode (Grant.authorizationCode lib)),
     .authInfo 0 b!"client_id_01" b!"profile offline_access",
     .session { redirectURI := b!"http://example.org/callback", code := b!"code_value", codeVerifier := b!"", expiresIn := 86400, nonce := b!"07dfa90f", authTime := clock },
     .request [(b!"grant_type", b!"authorization_code"), (b!"code", b!"code_value"), (b!"redirect_uri", b!"http://example.org/callback")]
      [(b!"Content-Type", b!"application/x-www-form-urlencoded; charset=UTF-8"), (b!"Authorization", (BasicAuth.header b!"client_id_01" b!"client_secret_01"))] 200
      [(b!"Content-Type", b!"application/json; charset=UTF-8"), (b!"Pragma", b!"no-cache"), (b!"Cache-Control", b!"no-store")]
      [(b!"access_token", .str b!"ACCESS_TOKEN_0"), (b!"refresh_token", .str b!"REFRESH_TOKEN_0"), (b!"expires_in", .int 86400), (b!"id_token", .absent)] none] = true := by
  decide +kernel

end Goidc.Conformance
