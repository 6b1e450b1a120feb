import Verif.Conformance.Harness

/-! # The tests of token_endpoint_test.go, token_endpoint_refresh_test.go, token_endpoint_password_test.go, token_endpoint_client_test.go, replayed -/

namespace Goidc.Conformance

/-- token_endpoint_test.go:44 `TestTokenEndpointErrorURIBuilder` -/
example : tokenTest
    []
    [.config (.support Grant.typeAuthorizationCode (Grant.authorizationCode lib)),
     .config (.acceptClientSecret .fromAll),
     .config (.setErrorURI b!"http://example.org/error"),
     .request []
      [(b!"Content-Type", b!"application/x-www-form-urlencoded; charset=UTF-8"), (b!"Authorization", (BasicAuth.header b!"client_id_000" b!"client_secret_000"))] 400
      [(b!"Content-Type", b!"application/json; charset=UTF-8"), (b!"Pragma", b!"no-cache"), (b!"Cache-Control", b!"no-store")]
      [(b!"error", .str b!"invalid_request"), (b!"error_description", .str b!"missing 'grant_type' parameter"), (b!"error_uri", .str b!"http://example.org/error")] none,
     .config (.setErrorURIBuilder (some fun e => b!"http://example.org/error#" ++ OAuthErrorType.string e)),
     .request []
      [(b!"Content-Type", b!"application/x-www-form-urlencoded; charset=UTF-8"), (b!"Authorization", (BasicAuth.header b!"client_id_000" b!"client_secret_000"))] 400
      [(b!"Content-Type", b!"application/json; charset=UTF-8"), (b!"Pragma", b!"no-cache"), (b!"Cache-Control", b!"no-store")]
      [(b!"error", .str b!"invalid_request"), (b!"error_description", .str b!"missing 'grant_type' parameter"), (b!"error_uri", .str b!"http://example.org/error#invalid_request")] none] = true := by
  decide +kernel

/-- token_endpoint_test.go:96 `TestTokenEndpointInvalidGrantType` -/
example : tokenTest
    []
    [.config (.support Grant.typeAuthorizationCode (Grant.authorizationCode lib)),
     .config (.acceptClientSecret .fromAll),
     .request []
      [(b!"Content-Type", b!"application/x-www-form-urlencoded; charset=UTF-8"), (b!"Authorization", (BasicAuth.header b!"client_id_000" b!"client_secret_000"))] 400
      [(b!"Content-Type", b!"application/json; charset=UTF-8"), (b!"Pragma", b!"no-cache"), (b!"Cache-Control", b!"no-store")]
      [(b!"error", .str b!"invalid_request"), (b!"error_description", .str b!"missing 'grant_type' parameter")] none,
     .request [(b!"grant_type", b!"refresh_token")]
      [(b!"Content-Type", b!"application/x-www-form-urlencoded; charset=UTF-8"), (b!"Authorization", (BasicAuth.header b!"client_id_000" b!"client_secret_000"))] 400
      [(b!"Content-Type", b!"application/json; charset=UTF-8"), (b!"Pragma", b!"no-cache"), (b!"Cache-Control", b!"no-store")]
      [(b!"error", .str b!"unsupported_grant_type"), (b!"error_description", .str b!"unsupported 'grant_type' parameter: 'refresh_token'")] none] = true := by
  decide +kernel

/-- token_endpoint_test.go:143 `TestTokenEndpointInvalidClient` -/
example : tokenTest
    [.createUser b!"user01" b!"pass01",
     .createClient 0 b!"client_id_01" b!"client_secret_01" b!"http://example.org/callback",
     .allow 0 b!"authorization_code"]
    [.config (.support Grant.typeAuthorizationCode (Grant.authorizationCode lib)),
     .config (.support Grant.typePassword (Grant.password)),
     .config (.support Grant.typeClientCredentials (Grant.clientCredentials)),
     .config (.acceptClientSecret .fromAll),
     .request [(b!"grant_type", b!"authorization_code")]
      [(b!"Content-Type", b!"application/x-www-form-urlencoded; charset=UTF-8")] 401
      [(b!"Content-Type", b!"application/json; charset=UTF-8"), (b!"Pragma", b!"no-cache"), (b!"Cache-Control", b!"no-store"), (b!"WWW-Authenticate", b!"Basic realm=\"api.example.org\"")]
      [(b!"error", .str b!"invalid_client")] none,
     .request [(b!"grant_type", b!"authorization_code"), (b!"client_id", b!"client_id_000"), (b!"client_secret", b!"client_secret_000")]
      [(b!"Content-Type", b!"application/x-www-form-urlencoded; charset=UTF-8")] 400
      [(b!"Content-Type", b!"application/json; charset=UTF-8"), (b!"Pragma", b!"no-cache"), (b!"Cache-Control", b!"no-store")]
      [(b!"error", .str b!"invalid_client")] none,
     .request [(b!"grant_type", b!"authorization_code")]
      [(b!"Content-Type", b!"application/x-www-form-urlencoded; charset=UTF-8"), (b!"Authorization", (BasicAuth.header b!"client_id_000" b!"client_secret_000"))] 401
      [(b!"Content-Type", b!"application/json; charset=UTF-8"), (b!"Pragma", b!"no-cache"), (b!"Cache-Control", b!"no-store"), (b!"WWW-Authenticate", b!"Basic realm=\"api.example.org\"")]
      [(b!"error", .str b!"invalid_client")] none,
     .request [(b!"grant_type", b!"authorization_code")]
      [(b!"Content-Type", b!"application/x-www-form-urlencoded; charset=UTF-8"), (b!"Authorization", (BasicAuth.header b!"client_id_01" b!"client_secret_000"))] 401
      [(b!"Content-Type", b!"application/json; charset=UTF-8"), (b!"Pragma", b!"no-cache"), (b!"Cache-Control", b!"no-store"), (b!"WWW-Authenticate", b!"Basic realm=\"api.example.org\"")]
      [(b!"error", .str b!"invalid_client")] none] = true := by
  decide +kernel

/-- token_endpoint_test.go:238 `TestTokenEndpointUnauthorizedClient` -/
example : tokenTest
    [.createUser b!"user01" b!"pass01",
     .createClient 0 b!"client_id_01" b!"client_secret_01" b!"http://example.org/callback"]
    [.config (.support Grant.typeAuthorizationCode (Grant.authorizationCode lib)),
     .config (.support Grant.typePassword (Grant.password)),
     .config (.support Grant.typeClientCredentials (Grant.clientCredentials)),
     .config (.acceptClientSecret .fromAll),
     .request [(b!"grant_type", b!"authorization_code")]
      [(b!"Content-Type", b!"application/x-www-form-urlencoded; charset=UTF-8"), (b!"Authorization", (BasicAuth.header b!"client_id_01" b!"client_secret_01"))] 400
      [(b!"Content-Type", b!"application/json; charset=UTF-8"), (b!"Pragma", b!"no-cache"), (b!"Cache-Control", b!"no-store")]
      [(b!"error", .str b!"unauthorized_client")] none] = true := by
  decide +kernel

/-- token_endpoint_refresh_test.go:14 `TestTokenEndpointRefreshTokenInvalidRequest` -/
example : tokenTest
    [.createUser b!"user01" b!"pass01",
     .createClient 0 b!"client_id_01" b!"client_secret_01" b!"http://example.org/callback",
     .allow 0 Grant.typeAuthorizationCode,
     .allow 0 Grant.typeRefreshToken]
    [.config (.support Grant.typeAuthorizationCode (Grant.authorizationCode lib)),
     .config (.support Grant.typeRefreshToken (Grant.refreshToken)),
     .authInfo 0 b!"client_id_01" b!"openid profile offline_access",
     .session { redirectURI := b!"http://example.org/callback", code := b!"code_value", codeVerifier := b!"", expiresIn := 86400, nonce := b!"07dfa90f", authTime := clock },
     .request [(b!"grant_type", b!"refresh_token")]
      [(b!"Content-Type", b!"application/x-www-form-urlencoded; charset=UTF-8"), (b!"Authorization", (BasicAuth.header b!"client_id_01" b!"client_secret_01"))] 400
      [(b!"Content-Type", b!"application/json; charset=UTF-8"), (b!"Pragma", b!"no-cache"), (b!"Cache-Control", b!"no-store")]
      [(b!"error", .str b!"invalid_request"), (b!"error_description", .str b!"missing 'refresh_token' parameter")] none,
     .request [(b!"grant_type", b!"refresh_token"), (b!"refresh_token", b!"INVALID_TOKEN")]
      [(b!"Content-Type", b!"application/x-www-form-urlencoded; charset=UTF-8"), (b!"Authorization", (BasicAuth.header b!"client_id_01" b!"client_secret_01"))] 400
      [(b!"Content-Type", b!"application/json; charset=UTF-8"), (b!"Pragma", b!"no-cache"), (b!"Cache-Control", b!"no-store")]
      [(b!"error", .str b!"invalid_grant")] none,
     .request [(b!"grant_type", b!"authorization_code"), (b!"code", b!"code_value"), (b!"redirect_uri", b!"http://example.org/callback")]
      [(b!"Content-Type", b!"application/x-www-form-urlencoded; charset=UTF-8"), (b!"Authorization", (BasicAuth.header b!"client_id_01" b!"client_secret_01"))] 200
      [(b!"Content-Type", b!"application/json; charset=UTF-8"), (b!"Pragma", b!"no-cache"), (b!"Cache-Control", b!"no-store")]
      [(b!"access_token", .str b!"ACCESS_TOKEN_0"), (b!"refresh_token", .str b!"REFRESH_TOKEN_0"), (b!"expires_in", .int 86400)] (some [(b!"iss", b!"http://example.org/"), (b!"sub", b!"0"), (b!"aud", b!"client_id_01")]),
     .request [(b!"grant_type", b!"refresh_token"), (b!"refresh_token", b!"REFRESH_TOKEN_0")]
      [(b!"Content-Type", b!"application/x-www-form-urlencoded; charset=UTF-8"), (b!"Authorization", (BasicAuth.header b!"client_id_01" b!"client_secret_01"))] 200
      [(b!"Content-Type", b!"application/json; charset=UTF-8"), (b!"Pragma", b!"no-cache"), (b!"Cache-Control", b!"no-store")]
      [(b!"access_token", .str b!"ACCESS_TOKEN_0:R"), (b!"refresh_token", .str b!"REFRESH_TOKEN_0"), (b!"expires_in", .int 86400)] none,
     .request [(b!"grant_type", b!"refresh_token"), (b!"refresh_token", b!"REFRESH_TOKEN_0")]
      [(b!"Content-Type", b!"application/x-www-form-urlencoded; charset=UTF-8"), (b!"Authorization", (BasicAuth.header b!"client_id_01" b!"client_secret_01"))] 200
      [(b!"Content-Type", b!"application/json; charset=UTF-8"), (b!"Pragma", b!"no-cache"), (b!"Cache-Control", b!"no-store")]
      [(b!"access_token", .str b!"ACCESS_TOKEN_0:R:R"), (b!"refresh_token", .str b!"REFRESH_TOKEN_0"), (b!"expires_in", .int 86400)] none] = true := by
  decide +kernel

/-- token_endpoint_password_test.go:12 `TestTokenEndpointPassword` -/
example : tokenTest
    [.createUser b!"user01" b!"pass01",
     .createClient 0 b!"client_id_01" b!"client_secret_01" b!"http://example.org/callback",
     .allow 0 Grant.typePassword]
    [.config (.support Grant.typePassword (Grant.password)),
     .request [(b!"grant_type", b!"password"), (b!"scope", b!"offline_access"), (b!"username", b!"user01"), (b!"password", b!"pass01")]
      [(b!"Content-Type", b!"application/x-www-form-urlencoded; charset=UTF-8"), (b!"Authorization", (BasicAuth.header b!"client_id_01" b!"client_secret_01"))] 200
      [(b!"Content-Type", b!"application/json; charset=UTF-8"), (b!"Pragma", b!"no-cache"), (b!"Cache-Control", b!"no-store")]
      [(b!"access_token", .str b!"ACCESS_TOKEN_0"), (b!"refresh_token", .str b!"REFRESH_TOKEN_0"), (b!"expires_in", .int 86400)] none,
     .request [(b!"grant_type", b!"password"), (b!"username", b!"user01"), (b!"password", b!"pass01")]
      [(b!"Content-Type", b!"application/x-www-form-urlencoded; charset=UTF-8"), (b!"Authorization", (BasicAuth.header b!"client_id_01" b!"client_secret_01"))] 200
      [(b!"Content-Type", b!"application/json; charset=UTF-8"), (b!"Pragma", b!"no-cache"), (b!"Cache-Control", b!"no-store")]
      [(b!"access_token", .str b!"ACCESS_TOKEN_0"), (b!"refresh_token", .absent), (b!"expires_in", .int 86400)] none] = true := by
  decide +kernel

/-- token_endpoint_password_test.go:73 `TestTokenEndpointPasswordInvalidRequest` -/
example : tokenTest
    [.createUser b!"user01" b!"pass01",
     .createClient 0 b!"client_id_01" b!"client_secret_01" b!"http://example.org/callback",
     .allow 0 Grant.typePassword]
    [.config (.support Grant.typePassword (Grant.password)),
     .request [(b!"grant_type", b!"password"), (b!"scope", b!"offline_access"), (b!"password", b!"pass01")]
      [(b!"Content-Type", b!"application/x-www-form-urlencoded; charset=UTF-8"), (b!"Authorization", (BasicAuth.header b!"client_id_01" b!"client_secret_01"))] 400
      [(b!"Content-Type", b!"application/json; charset=UTF-8"), (b!"Pragma", b!"no-cache"), (b!"Cache-Control", b!"no-store")]
      [(b!"error", .str b!"invalid_request"), (b!"error_description", .str b!"missing 'username' parameter")] none,
     .request [(b!"grant_type", b!"password"), (b!"scope", b!"offline_access"), (b!"username", b!"user01")]
      [(b!"Content-Type", b!"application/x-www-form-urlencoded; charset=UTF-8"), (b!"Authorization", (BasicAuth.header b!"client_id_01" b!"client_secret_01"))] 400
      [(b!"Content-Type", b!"application/json; charset=UTF-8"), (b!"Pragma", b!"no-cache"), (b!"Cache-Control", b!"no-store")]
      [(b!"error", .str b!"invalid_request"), (b!"error_description", .str b!"missing 'password' parameter")] none,
     .request [(b!"grant_type", b!"password"), (b!"scope", b!"offline_access"), (b!"username", b!"invalid_user"), (b!"password", b!"pass01")]
      [(b!"Content-Type", b!"application/x-www-form-urlencoded; charset=UTF-8"), (b!"Authorization", (BasicAuth.header b!"client_id_01" b!"client_secret_01"))] 400
      [(b!"Content-Type", b!"application/json; charset=UTF-8"), (b!"Pragma", b!"no-cache"), (b!"Cache-Control", b!"no-store")]
      [(b!"error", .str b!"invalid_grant")] none] = true := by
  decide +kernel

/-- token_endpoint_client_test.go:12 `TestTokenEndpointClientCredential` -/
example : tokenTest
    [.createUser b!"user01" b!"pass01",
     .createClient 0 b!"client_id_01" b!"client_secret_01" b!"http://example.org/callback",
     .allow 0 Grant.typeClientCredentials]
    [.config (.support Grant.typeClientCredentials (Grant.clientCredentials)),
     .request [(b!"grant_type", b!"client_credentials"), (b!"scope", b!"offline_access")]
      [(b!"Content-Type", b!"application/x-www-form-urlencoded; charset=UTF-8"), (b!"Authorization", (BasicAuth.header b!"client_id_01" b!"client_secret_01"))] 200
      [(b!"Content-Type", b!"application/json; charset=UTF-8"), (b!"Pragma", b!"no-cache"), (b!"Cache-Control", b!"no-store")]
      [(b!"access_token", .str b!"ACCESS_TOKEN_0"), (b!"refresh_token", .str b!"REFRESH_TOKEN_0"), (b!"expires_in", .int 86400)] none,
     .request [(b!"grant_type", b!"client_credentials")]
      [(b!"Content-Type", b!"application/x-www-form-urlencoded; charset=UTF-8"), (b!"Authorization", (BasicAuth.header b!"client_id_01" b!"client_secret_01"))] 200
      [(b!"Content-Type", b!"application/json; charset=UTF-8"), (b!"Pragma", b!"no-cache"), (b!"Cache-Control", b!"no-store")]
      [(b!"access_token", .str b!"ACCESS_TOKEN_0"), (b!"refresh_token", .absent), (b!"expires_in", .int 86400)] none] = true := by
  decide +kernel

end Goidc.Conformance
