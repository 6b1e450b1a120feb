{
 "M104": {
  "tightened": [
   "C71_table",
   "C71_unambiguous"
  ],
  "note": "Survived the theorems existing at the time (run of batch 2); the decision-table theorems C70-C72 were added because of it. The rerun of the same edit is logged separately."
 },
 "M121": {
  "tightened": [
   "C70_table"
  ],
  "note": "Survived at first: no theorem said which scopes count as nothing but offline_access. Decision table C70-C72 added; rerun logged separately."
 },
 "M139": {
  "tightened": [
   "C70_table"
  ],
  "note": "Survived at first: the code sent back for missing consent was not fixed by any theorem. Decision table C70-C72 added; rerun logged separately."
 },
 "M203": {
  "tightened": [
   "C75_jwt_grant",
   "C75_client_assertion"
  ],
  "note": "Survived at first: JWT theorems were stated with the model's own time check. Spec.Jwt (IsTime, NotExpired, NotEarly) and C75 added; rerun in batch 3."
 },
 "M206": {
  "tightened": [
   "C07",
   "C20",
   "C45"
  ],
  "note": "Survived at first: the algorithm family was the model's own function. Spec.Jwt now lists the algorithms of each family and SignatureOk is stated with it; rerun in batch 3."
 },
 "M304": {
  "tightened": [
   "C80_base64",
   "C80_basic_credentials"
  ],
  "note": "Survived at first: only texts written by the encoder were fixed, not which texts a server refuses. C80 added; rerun in batch 4."
 },
 "M330": {
  "tightened": [
   "C80_header",
   "C80_bearer_token"
  ],
  "note": "Survived at first: case folding was the model's own function. Spec.Http.SameFold and C80 added; rerun in batch 4."
 },
 "M354": {
  "tightened": [
   "C83"
  ],
  "note": "Survived at first: nothing fixed the text of a log line. C83 (Spec.LogText) added; rerun in batch 4."
 },
 "M356": {
  "tightened": [
   "C83"
  ],
  "note": "Survived at first: nothing fixed the text of a log line. C83 (Spec.LogText) added; rerun in batch 4."
 },
 "M367": {
  "tightened": [
   "C55"
  ],
  "note": "Survived at first: C55 fixed the JSON, header and query forms of an error but not its message. Theorem on the message added; rerun in batch 4."
 },
 "M371": {
  "tightened": [
   "C88"
  ],
  "note": "Survived at first: no theorem fixed when the reference store gives out a refresh token. C88 (end-to-end completeness on the reference store) added; rerun in batch 4."
 },
 "M372": {
  "tightened": [
   "C88"
  ],
  "note": "Survived at first: no theorem fixed that a new authorization of the reference store is active. C88 added; rerun in batch 4."
 },
 "M375": {
  "tightened": [],
  "note": "Survived and outside every claim: how a JSON number outside int64 decodes is only used by DecodeRequest on texts no EncodeRequest writes."
 },
 "M385": {
  "tightened": [
   "C79"
  ],
  "note": "Survived at first: the error code of a badly signed assertion was not fixed. C79 added; rerun in batch 4."
 },
 "M390": {
  "tightened": [
   "C80"
  ],
  "note": "Survived at first: which of two values of a parameter counts was the model's own function. C80 added; rerun in batch 4."
 },
 "M392": {
  "tightened": [
   "C80_basic_credentials"
  ],
  "note": "Survived at first: texts no client encoder writes were not covered. C80 added; rerun in batch 4."
 },
 "M583": {
  "tightened": [
   "C84_explained"
  ],
  "note": "Survived at first: C84 did not fix under which grant type missing credentials are logged. Tightened; rerun in a later batch."
 },
 "M586": {
  "tightened": [
   "C92_token",
   "C92_default_mode",
   "C92_default_code",
   "C92_default_consent",
   "C92_default_id_token"
  ],
  "note": "Survived at first: constructors, setters and default values were not constrained by any theorem. C92 (settings) was added because of these; reruns in batches 5, 6 and 14."
 },
 "M587": {
  "tightened": [
   "C92_token",
   "C92_default_mode",
   "C92_default_code",
   "C92_default_consent",
   "C92_default_id_token"
  ],
  "note": "Survived at first: constructors, setters and default values were not constrained by any theorem. C92 (settings) was added because of these; reruns in batches 5, 6 and 14."
 },
 "M588": {
  "tightened": [
   "C92_token",
   "C92_default_mode",
   "C92_default_code",
   "C92_default_consent",
   "C92_default_id_token"
  ],
  "note": "Survived at first: constructors, setters and default values were not constrained by any theorem. C92 (settings) was added because of these; reruns in batches 5, 6 and 14."
 },
 "M589": {
  "tightened": [
   "C92_token",
   "C92_default_mode",
   "C92_default_code",
   "C92_default_consent",
   "C92_default_id_token"
  ],
  "note": "Survived at first: constructors, setters and default values were not constrained by any theorem. C92 (settings) was added because of these; reruns in batches 5, 6 and 14."
 },
 "M597": {
  "tightened": [
   "C92_token",
   "C92_default_mode",
   "C92_default_code",
   "C92_default_consent",
   "C92_default_id_token"
  ],
  "note": "Survived at first: constructors, setters and default values were not constrained by any theorem. C92 (settings) was added because of these; reruns in batches 5, 6 and 14."
 },
 "M592": {
  "tightened": [],
  "note": "Equivalent up to the clock: the logged time is read right before."
 },
 "M601": {
  "tightened": [
   "C70_table",
   "C71_table",
   "C72_login_required"
  ],
  "note": "Survived at first: error descriptions were not part of the decision tables. They are now; reruns in batch 5."
 },
 "M605": {
  "tightened": [
   "C70_table",
   "C71_table",
   "C72_login_required"
  ],
  "note": "Survived at first: error descriptions were not part of the decision tables. They are now; reruns in batch 5."
 },
 "M606": {
  "tightened": [
   "C70_table",
   "C71_table",
   "C72_login_required"
  ],
  "note": "Survived at first: error descriptions were not part of the decision tables. They are now; reruns in batch 5."
 },
 "M626": {
  "tightened": [
   "C94_usable"
  ],
  "note": "Survived at first: the times the reference store writes into tokens were not constrained. C94 was added; reruns in batch 6."
 },
 "M627": {
  "tightened": [
   "C94_usable"
  ],
  "note": "Survived at first: the times the reference store writes into tokens were not constrained. C94 was added; reruns in batch 6."
 },
 "M628": {
  "tightened": [],
  "note": "No claim at the time; C103 (DecodeRequest reads what its JSON says) later fixed the decoding."
 },
 "M629": {
  "tightened": [],
  "note": "No claim at the time; C103 (DecodeRequest reads what its JSON says) later fixed the decoding."
 },
 "M818": {
  "tightened": [
   "C83_line",
   "C83_printed"
  ],
  "note": "Survived at first: C83 did not fix the texts of the log events. Tightened; M818 rerun as M818r fails."
 },
 "M864": {
  "tightened": [
   "C83_line",
   "C83_printed"
  ],
  "note": "Survived at first: C83 did not fix the texts of the log events. Tightened; M818 rerun as M818r fails."
 },
 "M822": {
  "tightened": [],
  "note": "The names of extra attributes in log lines: no claim."
 },
 "M826": {
  "tightened": [],
  "note": "The names of extra attributes in log lines: no claim."
 },
 "M828": {
  "tightened": [],
  "note": "The names of extra attributes in log lines: no claim."
 },
 "M848": {
  "tightened": [],
  "note": "Equivalent: malformed and unverifiable tokens are told apart before this value is looked at."
 },
 "M848r": {
  "tightened": [],
  "note": "Equivalent: malformed and unverifiable tokens are told apart before this value is looked at."
 },
 "M856": {
  "tightened": [],
  "note": "Text of an error of the key loader: no claim."
 },
 "M870": {
  "tightened": [
   "C108_tells"
  ],
  "note": "Survived at first: the labels of the levels were not constrained. C108_tells (the line tells its level) added; reruns in batch 14."
 },
 "M1226": {
  "tightened": [
   "C108_tells"
  ],
  "note": "Survived at first: the labels of the levels were not constrained. C108_tells (the line tells its level) added; reruns in batch 14."
 },
 "M1554": {
  "tightened": [
   "C108_tells"
  ],
  "note": "Survived at first: the labels of the levels were not constrained. C108_tells (the line tells its level) added; reruns in batch 14."
 },
 "M1855": {
  "tightened": [
   "C108_tells"
  ],
  "note": "Survived at first: the labels of the levels were not constrained. C108_tells (the line tells its level) added; reruns in batch 14."
 },
 "M2026": {
  "tightened": [
   "C108_tells"
  ],
  "note": "Survived at first: the labels of the levels were not constrained. C108_tells (the line tells its level) added; reruns in batch 14."
 },
 "M2325": {
  "tightened": [
   "C108_tells"
  ],
  "note": "Survived at first: the labels of the levels were not constrained. C108_tells (the line tells its level) added; reruns in batch 14."
 },
 "M1022": {
  "tightened": [],
  "note": "Equivalent: levels are only compared."
 },
 "M1312": {
  "tightened": [
   "C103_decode_partial"
  ],
  "note": "Survived at first: JSON decoding of stored requests was only constrained through round trips. C103 and C104 added; reruns in batch 14."
 },
 "M1336": {
  "tightened": [
   "C103_decode_partial"
  ],
  "note": "Survived at first: JSON decoding of stored requests was only constrained through round trips. C103 and C104 added; reruns in batch 14."
 },
 "M1227": {
  "tightened": [
   "C103_decode_partial"
  ],
  "note": "Survived at first: JSON decoding of stored requests was only constrained through round trips. C103 and C104 added; reruns in batch 14."
 },
 "M1036": {
  "tightened": [
   "C103_decode_partial"
  ],
  "note": "Survived at first: JSON decoding of stored requests was only constrained through round trips. C103 and C104 added; reruns in batch 14."
 },
 "M1297": {
  "tightened": [
   "C103_decode_partial"
  ],
  "note": "Survived at first: JSON decoding of stored requests was only constrained through round trips. C103 and C104 added; reruns in batch 14."
 },
 "M2075": {
  "tightened": [
   "C103_decode_partial"
  ],
  "note": "Survived at first: JSON decoding of stored requests was only constrained through round trips. C103 and C104 added; reruns in batch 14."
 },
 "M2220": {
  "tightened": [
   "C103_decode_partial"
  ],
  "note": "Survived at first: JSON decoding of stored requests was only constrained through round trips. C103 and C104 added; reruns in batch 14."
 },
 "M1024": {
  "tightened": [
   "C92_default_mode",
   "C92_default_code",
   "C92_default_consent"
  ],
  "note": "Survived at first: the numbers of the default policy were not constrained. C92_default_* added; reruns in batch 14."
 },
 "M1381": {
  "tightened": [
   "C92_default_mode",
   "C92_default_code",
   "C92_default_consent"
  ],
  "note": "Survived at first: the numbers of the default policy were not constrained. C92_default_* added; reruns in batch 14."
 },
 "M2007": {
  "tightened": [
   "C92_default_mode",
   "C92_default_code",
   "C92_default_consent"
  ],
  "note": "Survived at first: the numbers of the default policy were not constrained. C92_default_* added; reruns in batch 14."
 }
}