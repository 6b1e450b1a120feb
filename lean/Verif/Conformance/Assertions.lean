import Verif.Conformance.Harness

/-! # The tests of token_endpoint_jwt_test.go, token_endpoint_assertion_test.go, replayed -/

namespace Goidc.Conformance

/-- token_endpoint_jwt_test.go:14 `TestTokenEndpointJWT` -/
example : tokenTest
    [.createUser b!"user01" b!"pass01",
     .createClient 0 b!"client_id_01" b!"client_secret_01" b!"http://example.org/callback",
     .allow 0 Grant.typeJWT]
    [.config (.support Grant.typeJWT (Grant.jwt lib)),
     .request [(b!"grant_type", b!"urn:ietf:params:oauth:client-assertion-type:jwt-bearer"), (b!"scope", b!"offline_access"), (b!"assertion", (Jws.sign Crypto.prims b!"HS256" [] [(b!"aud", .str b!"http://example.org/"), (b!"iss", .str b!"http://client.example.org/"), (b!"sub", .str b!"user01"), (b!"exp", .float (clock + 86400))] b!"client_secret_01"))]
      [(b!"Content-Type", b!"application/x-www-form-urlencoded; charset=UTF-8"), (b!"Authorization", (BasicAuth.header b!"client_id_01" b!"client_secret_01"))] 200
      [(b!"Content-Type", b!"application/json; charset=UTF-8"), (b!"Pragma", b!"no-cache"), (b!"Cache-Control", b!"no-store")]
      [(b!"access_token", .str b!"ACCESS_TOKEN_0"), (b!"refresh_token", .str b!"REFRESH_TOKEN_0"), (b!"expires_in", .int 86400)] none] = true := by
  decide +kernel

/-- token_endpoint_jwt_test.go:64 `TestTokenEndpointJWTInvalidRequest` -/
example : tokenTest
    [.createUser b!"user01" b!"pass01",
     .createClient 0 b!"client_id_01" b!"client_secret_01" b!"http://example.org/callback",
     .allow 0 Grant.typeJWT]
    [.config (.support Grant.typeJWT (Grant.jwt lib)),
     .request [(b!"grant_type", b!"urn:ietf:params:oauth:client-assertion-type:jwt-bearer"), (b!"scope", b!"offline_access")]
      [(b!"Content-Type", b!"application/x-www-form-urlencoded; charset=UTF-8"), (b!"Authorization", (BasicAuth.header b!"client_id_01" b!"client_secret_01"))] 400
      [(b!"Content-Type", b!"application/json; charset=UTF-8"), (b!"Pragma", b!"no-cache"), (b!"Cache-Control", b!"no-store")]
      [(b!"error", .str b!"invalid_request"), (b!"error_description", .str b!"missing 'assertion' parameter")] none] = true := by
  decide +kernel

/-- token_endpoint_assertion_test.go:14 `TestTokenEndpointClientAssertion` -/
example : tokenTest
    [.createUser b!"user01" b!"pass01",
     .createClient 0 b!"client_id_01" b!"client_secret_01" b!"http://example.org/callback",
     .allow 0 b!"authorization_code"]
    [.config (.support Grant.typeAuthorizationCode (Grant.authorizationCode lib)),
     .config (.support Grant.typePassword (Grant.password)),
     .config (.support Grant.typeClientCredentials (Grant.clientCredentials)),
     .config (.acceptClientAssertion true),
     .authInfo 0 b!"client_id_01" b!"openid profile offline_access",
     .session { redirectURI := b!"http://example.org/callback", code := b!"code_value", codeVerifier := b!"", expiresIn := 86400, nonce := b!"07dfa90f", authTime := clock },
     .request [(b!"grant_type", b!"authorization_code"), (b!"code", b!"code_value"), (b!"redirect_uri", b!"http://example.org/callback"), (b!"client_assertion", (Jws.sign Crypto.prims b!"HS256" [] [(b!"aud", .str b!"http://example.org/"), (b!"iss", .str b!"http://client.example.org/"), (b!"sub", .str b!"client_id_01"), (b!"exp", .float (clock + 86400))] b!"client_secret_01")), (b!"client_assertion_type", b!"urn:ietf:params:oauth:client-assertion-type:jwt-bearer")]
      [(b!"Content-Type", b!"application/x-www-form-urlencoded; charset=UTF-8")] 200
      [(b!"Content-Type", b!"application/json; charset=UTF-8"), (b!"Pragma", b!"no-cache"), (b!"Cache-Control", b!"no-store")]
      [(b!"access_token", .str b!"ACCESS_TOKEN_0"), (b!"refresh_token", .str b!"REFRESH_TOKEN_0"), (b!"expires_in", .int 86400)] (some [(b!"iss", b!"http://example.org/"), (b!"sub", b!"0"), (b!"aud", b!"client_id_01")]),
     .authInfo 0 b!"client_id_01" b!"openid profile offline_access",
     .session { redirectURI := b!"http://example.org/callback", code := b!"code_value", codeVerifier := b!"", expiresIn := 86400, nonce := b!"07dfa90f", authTime := clock },
     .request [(b!"grant_type", b!"authorization_code"), (b!"code", b!"code_value"), (b!"redirect_uri", b!"http://example.org/callback"), (b!"client_assertion", (Jws.sign Crypto.prims b!"HS256" [] [(b!"aud", .str b!"http://example.org/"), (b!"iss", .str b!"http://client.example.org/"), (b!"sub", .str b!"client_id_01"), (b!"exp", .float (clock + 86400)), (b!"nbf", .float (clock - 86400))] b!"client_secret_01")), (b!"client_assertion_type", b!"urn:ietf:params:oauth:client-assertion-type:jwt-bearer")]
      [(b!"Content-Type", b!"application/x-www-form-urlencoded; charset=UTF-8")] 200
      [(b!"Content-Type", b!"application/json; charset=UTF-8"), (b!"Pragma", b!"no-cache"), (b!"Cache-Control", b!"no-store")]
      [(b!"access_token", .str b!"ACCESS_TOKEN_0"), (b!"refresh_token", .str b!"REFRESH_TOKEN_0"), (b!"expires_in", .int 86400)] (some [(b!"iss", b!"http://example.org/"), (b!"sub", b!"0"), (b!"aud", b!"client_id_01")]),
     .request [(b!"grant_type", b!"authorization_code"), (b!"code", b!"code_value"), (b!"redirect_uri", b!"http://example.org/callback"), (b!"client_assertion", (Jws.sign Crypto.prims b!"HS256" [] [(b!"iss", .str b!"http://client.example.org/"), (b!"sub", .str b!"client_id_01"), (b!"exp", .float (clock + 86400))] b!"client_secret_01")), (b!"client_assertion_type", b!"urn:ietf:params:oauth:client-assertion-type:jwt-bearer")]
      [(b!"Content-Type", b!"application/x-www-form-urlencoded; charset=UTF-8")] 400
      [(b!"Content-Type", b!"application/json; charset=UTF-8"), (b!"Pragma", b!"no-cache"), (b!"Cache-Control", b!"no-store")]
      [(b!"error", .str b!"invalid_request"), (b!"error_description", .str b!"'aud' parameter not found in assertion")] none,
     .request [(b!"grant_type", b!"authorization_code"), (b!"code", b!"code_value"), (b!"redirect_uri", b!"http://example.org/callback"), (b!"client_assertion", (Jws.sign Crypto.prims b!"HS256" [] [(b!"aud", .str b!"http://unknown.example.org/"), (b!"iss", .str b!"http://client.example.org/"), (b!"sub", .str b!"client_id_01"), (b!"exp", .float (clock + 86400))] b!"client_secret_01")), (b!"client_assertion_type", b!"urn:ietf:params:oauth:client-assertion-type:jwt-bearer")]
      [(b!"Content-Type", b!"application/x-www-form-urlencoded; charset=UTF-8")] 400
      [(b!"Content-Type", b!"application/json; charset=UTF-8"), (b!"Pragma", b!"no-cache"), (b!"Cache-Control", b!"no-store")]
      [(b!"error", .str b!"invalid_grant"), (b!"error_description", .str b!"invalid 'aud' parameter 'http://unknown.example.org/' in assertion")] none,
     .request [(b!"grant_type", b!"authorization_code"), (b!"code", b!"code_value"), (b!"redirect_uri", b!"http://example.org/callback"), (b!"client_assertion", (Jws.sign Crypto.prims b!"HS256" [] [(b!"aud", .str b!"http://example.org/"), (b!"iss", .str b!"http://client.example.org/"), (b!"sub", .str b!"client_id_01")] b!"client_secret_01")), (b!"client_assertion_type", b!"urn:ietf:params:oauth:client-assertion-type:jwt-bearer")]
      [(b!"Content-Type", b!"application/x-www-form-urlencoded; charset=UTF-8")] 400
      [(b!"Content-Type", b!"application/json; charset=UTF-8"), (b!"Pragma", b!"no-cache"), (b!"Cache-Control", b!"no-store")]
      [(b!"error", .str b!"invalid_request"), (b!"error_description", .str b!"'exp' parameter not found in assertion")] none,
     .request [(b!"grant_type", b!"authorization_code"), (b!"code", b!"code_value"), (b!"redirect_uri", b!"http://example.org/callback"), (b!"client_assertion", (Jws.sign Crypto.prims b!"HS256" [] [(b!"aud", .str b!"http://example.org/"), (b!"iss", .str b!"http://client.example.org/"), (b!"sub", .str b!"client_id_01"), (b!"exp", .float (clock - 86400))] b!"client_secret_01")), (b!"client_assertion_type", b!"urn:ietf:params:oauth:client-assertion-type:jwt-bearer")]
      [(b!"Content-Type", b!"application/x-www-form-urlencoded; charset=UTF-8")] 400
      [(b!"Content-Type", b!"application/json; charset=UTF-8"), (b!"Pragma", b!"no-cache"), (b!"Cache-Control", b!"no-store")]
      [(b!"error", .str b!"invalid_grant"), (b!"error_description", .str b!"assertion expired")] none,
     .request [(b!"grant_type", b!"authorization_code"), (b!"code", b!"code_value"), (b!"redirect_uri", b!"http://example.org/callback"), (b!"client_assertion", (Jws.sign Crypto.prims b!"HS256" [] [(b!"aud", .str b!"http://example.org/"), (b!"iss", .str b!"http://client.example.org/"), (b!"sub", .str b!"client_id_01"), (b!"nbf", .float (clock + 86400))] b!"client_secret_01")), (b!"client_assertion_type", b!"urn:ietf:params:oauth:client-assertion-type:jwt-bearer")]
      [(b!"Content-Type", b!"application/x-www-form-urlencoded; charset=UTF-8")] 400
      [(b!"Content-Type", b!"application/json; charset=UTF-8"), (b!"Pragma", b!"no-cache"), (b!"Cache-Control", b!"no-store")]
      [(b!"error", .str b!"invalid_grant"), (b!"error_description", .str b!"assertion not valid yet")] none,
     .request [(b!"grant_type", b!"authorization_code"), (b!"code", b!"code_value"), (b!"redirect_uri", b!"http://example.org/callback"), (b!"client_assertion", (Jws.sign Crypto.prims b!"HS256" [] [(b!"aud", .str b!"http://unknown.example.org/"), (b!"iss", .str b!"http://client.example.org/"), (b!"exp", .float (clock + 86400))] b!"client_secret_01")), (b!"client_assertion_type", b!"urn:ietf:params:oauth:client-assertion-type:jwt-bearer")]
      [(b!"Content-Type", b!"application/x-www-form-urlencoded; charset=UTF-8")] 400
      [(b!"Content-Type", b!"application/json; charset=UTF-8"), (b!"Pragma", b!"no-cache"), (b!"Cache-Control", b!"no-store")]
      [(b!"error", .str b!"invalid_request"), (b!"error_description", .str b!"'sub' parameter not found in assertion")] none,
     .request [(b!"grant_type", b!"authorization_code"), (b!"code", b!"code_value"), (b!"redirect_uri", b!"http://example.org/callback"), (b!"client_assertion", (Jws.sign Crypto.prims b!"HS256" [] [(b!"aud", .str b!"http://unknown.example.org/"), (b!"iss", .str b!"http://client.example.org/"), (b!"sub", .str b!"unknown_client_id"), (b!"exp", .float (clock + 86400))] b!"client_secret_01")), (b!"client_assertion_type", b!"urn:ietf:params:oauth:client-assertion-type:jwt-bearer")]
      [(b!"Content-Type", b!"application/x-www-form-urlencoded; charset=UTF-8")] 400
      [(b!"Content-Type", b!"application/json; charset=UTF-8"), (b!"Pragma", b!"no-cache"), (b!"Cache-Control", b!"no-store")]
      [(b!"error", .str b!"invalid_client")] none,
     .request [(b!"grant_type", b!"authorization_code"), (b!"code", b!"code_value"), (b!"redirect_uri", b!"http://example.org/callback"), (b!"client_assertion", (Jws.sign Crypto.prims b!"HS256" [] [(b!"aud", .str b!"http://example.org/"), (b!"iss", .str b!"http://client.example.org/"), (b!"sub", .str b!"client_id_01"), (b!"exp", .float (clock + 86400))] b!"foobarbuz")), (b!"client_assertion_type", b!"urn:ietf:params:oauth:client-assertion-type:jwt-bearer")]
      [(b!"Content-Type", b!"application/x-www-form-urlencoded; charset=UTF-8")] 400
      [(b!"Content-Type", b!"application/json; charset=UTF-8"), (b!"Pragma", b!"no-cache"), (b!"Cache-Control", b!"no-store")]
      [(b!"error", .str b!"invalid_client")] none] = true := by
  decide +kernel

end Goidc.Conformance
