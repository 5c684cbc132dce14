{
 "C03": {
  "note": "Proved under the stated premise (an unused UUID among the ten attempts); C03_duplicate_id_possible shows the premise is needed."
 },
 "C08": {
  "note": "Proved for histories with unused UUIDs; with a duplicate ID (C03) the check accepts a mismatched pair (C08_fails_with_duplicate_ids), and C08_account_calls_same_id says what remains in every history."
 },
 "C48": {
  "note": "The property records that a failed call is not a no-op; proved as stated."
 },
 "C52": {
  "note": "The code violates the property; C52_getPath_unstable refutes it for every database, and the other theorems prove what does hold."
 }
}