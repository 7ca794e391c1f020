import Verif.Conform.Aead
/-
src/test_util/s2a_test_data.h.  [generated from that file]
-/
namespace S2A.Conform.Data

/-- `aes_128_gcm_traffic_secret` (line 30). -/
def aes128GcmTrafficSecret : Bytes :=
  hx 32 0x6b6b6b6b6b6b6b6b6b6b6b6b6b6b6b6b6b6b6b6b6b6b6b6b6b6b6b6b6b6b6b6b

/-- `aes_256_gcm_traffic_secret` (line 35). -/
def aes256GcmTrafficSecret : Bytes :=
  hx 48 0x6b6b6b6b6b6b6b6b6b6b6b6b6b6b6b6b6b6b6b6b6b6b6b6b6b6b6b6b6b6b6b6b6b6b6b6b6b6b6b6b6b6b6b6b6b6b6b6b

/-- `chacha_poly_traffic_secret` (line 41). -/
def chachaPolyTrafficSecret : Bytes :=
  hx 32 0x6b6b6b6b6b6b6b6b6b6b6b6b6b6b6b6b6b6b6b6b6b6b6b6b6b6b6b6b6b6b6b6b

/-- `aes_128_gcm_advanced_traffic_secret` (line 49). -/
def aes128GcmAdvancedTrafficSecret : Bytes :=
  hx 32 0xf38b9455ea5871235a69fc37610c6ca1215779e66b45a047d7390111e00081c4

/-- `aes_256_gcm_advanced_traffic_secret` (line 53). -/
def aes256GcmAdvancedTrafficSecret : Bytes :=
  hx 48 0x016c835db664beb5526a9bb3d9a4fba63e67255dcfa460a114d9f1ef9a9a1f685a518739f557d0e66fdb89bdafa26257

/-- `chacha_poly_advanced_traffic_secret` (line 59). -/
def chachaPolyAdvancedTrafficSecret : Bytes :=
  hx 32 0xf38b9455ea5871235a69fc37610c6ca1215779e66b45a047d7390111e00081c4

/-- `aes_128_gcm_key_bytes` (line 67). -/
def aes128GcmKeyBytes : Bytes :=
  hx 16 0xc3ae7509cfced2b803a6186956cda79f

/-- `aes_256_gcm_key_bytes` (line 71). -/
def aes256GcmKeyBytes : Bytes :=
  hx 32 0xdac731ae4866677ed2f65c490e18817be5cbbbd03f597ad59041c117b731109a

/-- `chacha_poly_key_bytes` (line 76). -/
def chachaPolyKeyBytes : Bytes :=
  hx 32 0x130e2000508ace00ef265e172d09892e467256cb90dad9de99533cf548be6a8b

/-- `aes_128_gcm_nonce_bytes` (line 81). -/
def aes128GcmNonceBytes : Bytes :=
  hx 12 0xb5803d82ad8854d2e598187f

/-- `aes_256_gcm_nonce_bytes` (line 84). -/
def aes256GcmNonceBytes : Bytes :=
  hx 12 0x4db152d27d180b1ee48fa89d

/-- `chacha_poly_nonce_bytes` (line 87). -/
def chachaPolyNonceBytes : Bytes :=
  hx 12 0xb5803d82ad8854d2e598187f

/-- `aes_128_gcm_record_one_bytes` (line 93). -/
def aes128GcmRecordOneBytes : Bytes :=
  hx 28 0x1703030017f2e4e411ac6760e4e3f074a36574c45ee4c1906103db0d

/-- `aes_256_gcm_record_one_bytes` (line 98). -/
def aes256GcmRecordOneBytes : Bytes :=
  hx 28 0x170303001724efee5af1a62170ad5a95f899d038b965386a1a7daed9

/-- `chacha_poly_record_one_bytes` (line 103). -/
def chachaPolyRecordOneBytes : Bytes :=
  hx 28 0x1703030017c947ffa470304370338bb07ce468e6b8a0944a338ba402

/-- `aes_128_gcm_record_two_bytes` (line 111). -/
def aes128GcmRecordTwoBytes : Bytes :=
  hx 31 0x170303001ad7853afd6d7ceaabab950a0b6707905d2b908894871c7c62021f

/-- `aes_256_gcm_record_two_bytes` (line 116). -/
def aes256GcmRecordTwoBytes : Bytes :=
  hx 31 0x170303001a832a5fd271b6442e74bc02111a8e8b52a74b14dd3eca8598b293

/-- `chacha_poly_record_two_bytes` (line 121). -/
def chachaPolyRecordTwoBytes : Bytes :=
  hx 31 0x170303001a0cedeb922170c110c172262542c67916b78fa0d1c1261709cd00

/-- `aes_128_gcm_record_three_bytes` (line 129). -/
def aes128GcmRecordThreeBytes : Bytes :=
  hx 26 0x1703030015af778b0ed66efee713fbeda2357b832f759500eecd

/-- `aes_256_gcm_record_three_bytes` (line 134). -/
def aes256GcmRecordThreeBytes : Bytes :=
  hx 26 0x170303001596cb84cc5dbd27a513c6d223cc0f4a5840e17e56d8

/-- `chacha_poly_record_three_bytes` (line 139). -/
def chachaPolyRecordThreeBytes : Bytes :=
  hx 26 0x1703030015924a5343cf1dc695094941aba16c6c24305cc8408a

/-- `decrypt_plaintext_1` (line 148). -/
def decryptPlaintext1 : Bytes :=
  hx 6 0x313233343536

/-- `aes_128_gcm_decrypt_record_1` (line 150). -/
def aes128GcmDecryptRecord1 : Bytes :=
  hx 28 0x1703030017f2e4e411ac6760e4e3f074a36574c45ee4c1906103db0d

/-- `aes_256_gcm_decrypt_record_1` (line 155). -/
def aes256GcmDecryptRecord1 : Bytes :=
  hx 28 0x170303001724efee5af1a62170ad5a95f899d038b965386a1a7daed9

/-- `chacha_poly_decrypt_record_1` (line 160). -/
def chachaPolyDecryptRecord1 : Bytes :=
  hx 28 0x1703030017c947ffa470304370338bb07ce468e6b8a0944a338ba402

/-- `aes_128_gcm_decrypt_close_notify` (line 169). -/
def aes128GcmDecryptCloseNotify : Bytes :=
  hx 24 0x1703030013c2d6c245fb80969de1dd9d14499261b67735b0

/-- `aes_256_gcm_decrypt_close_notify` (line 173). -/
def aes256GcmDecryptCloseNotify : Bytes :=
  hx 24 0x170303001314ddc8f3b3856660bb5ac81533c157582f8b4c

/-- `chacha_poly_decrypt_close_notify` (line 177). -/
def chachaPolyDecryptCloseNotify : Bytes :=
  hx 24 0x1703030013f975d9cb2f116d85d4e3859f5288a9b013d778

/-- `aes_128_gcm_decrypt_alert_other` (line 185). -/
def aes128GcmDecryptAlertOther : Bytes :=
  hx 24 0x1703030013c2fac23f995cbe79a8d1e4c8f0353afefeaac9

/-- `aes_256_gcm_decrypt_alert_other` (line 189). -/
def aes256GcmDecryptAlertOther : Bytes :=
  hx 24 0x170303001314f1c80add85193c9598219ae9dc26f2479ccf

/-- `chacha_poly_decrypt_alert_other` (line 193). -/
def chachaPolyDecryptAlertOther : Bytes :=
  hx 24 0x1703030013f959d96fed92bdc7e85e04e86c19eaf154b052

/-- `aes_128_gcm_decrypt_alert_small` (line 201). -/
def aes128GcmDecryptAlertSmall : Bytes :=
  hx 23 0x1703030012c2c351fc48d9ac84fa165adcc9a26ffbc3c7

/-- `aes_256_gcm_decrypt_alert_small` (line 205). -/
def aes256GcmDecryptAlertSmall : Bytes :=
  hx 23 0x170303001214c8476102a460b5cf9e9ba59e1726215ca9

/-- `chacha_poly_decrypt_alert_small` (line 209). -/
def chachaPolyDecryptAlertSmall : Bytes :=
  hx 23 0x1703030012f9606a83ac17b165a51f3fe764da8560c706

/-- `aes_128_gcm_empty_record_bytes` (line 216). -/
def aes128GcmEmptyRecordBytes : Bytes :=
  hx 22 0x1703030011d47cb2ec040f26cc8989330339c669dd4e

/-- `aes_256_gcm_empty_record_bytes` (line 220). -/
def aes256GcmEmptyRecordBytes : Bytes :=
  hx 22 0x170303001102a04134d38c1118f36b01d177c5d2dcf7

/-- `chacha_poly_empty_record_bytes` (line 224). -/
def chachaPolyEmptyRecordBytes : Bytes :=
  hx 22 0x1703030011ef8f7a428ddc84ee5968cd6306bf1d2d1b

/-- `key_update_message` (line 229). -/
def keyUpdateMessage : Bytes :=
  hx 5 0x1800000100

/-- `test_message_1` (line 232). -/
def testMessage1 : Bytes := []

/-- `test_message_2` (line 235). -/
def testMessage2 : Bytes :=
  hx 1 0x08

/-- `test_message_3` (line 238). -/
def testMessage3 : Bytes :=
  hx 16 0x2e6265ffd59c0f647e2d82efd10d9c59

/-- `message_encrypted_with_padded_zeros` (line 242). -/
def messageEncryptedWithPaddedZeros : Bytes :=
  hx 6 0x313233343536

/-- `aes_128_gcm_padded_zeros_record` (line 246). -/
def aes128GcmPaddedZerosRecord : Bytes :=
  hx 38 0x1703030021f2e4e411ac6760e84726e4886d7432e39b34f0fccfc1f4558303c68a19535c0ff5

/-- `aes_256_gcm_padded_zeros_record` (line 251). -/
def aes256GcmPaddedZerosRecord : Bytes :=
  hx 38 0x170303002124efee5af1a621e8a4d1f269930e7835cfdd05e2d0bec5b01a67decfa6372c2af7

/-- `chacha_poly_padded_zeros_record` (line 256). -/
def chachaPolyPaddedZerosRecord : Bytes :=
  hx 38 0x1703030021c947ffa4703043f063e7b6a0519fbd0956cf3a7c9730c13597eec17ec7e700f140

/-- `aes_128_gcm_in_key_1` (line 261). -/
def aes128GcmInKey1 : Bytes :=
  hx 32 0xdde95f3af7edbe3a085b821b5bb220294e5223fa28c2e3bf489dde996a0fb344

/-- `aes_128_gcm_out_key_1` (line 265). -/
def aes128GcmOutKey1 : Bytes :=
  hx 32 0x656816ce095c30594d8b71376acb5190938fc75cf2d2dca5fdf1afb1c0f72220

/-- `aes_128_gcm_in_key_2` (line 269). -/
def aes128GcmInKey2 : Bytes :=
  hx 32 0x2dbf2306d336402210a07ce31e6cff8bf3cdd55f1d3689e58e6992a2b3758a0a

/-- `aes_128_gcm_out_key_2` (line 273). -/
def aes128GcmOutKey2 : Bytes :=
  hx 32 0xc3e213e93fad446668b62873867294d40a36d9ecd3c382744e9f2c7811e91c9d

/-- `aes_128_gcm_in_key_3` (line 277). -/
def aes128GcmInKey3 : Bytes :=
  hx 32 0xe841950cbf9ec9b802350908736076bdc53834f2621b3a86562a7048ddb46698

/-- `aes_128_gcm_out_key_3` (line 280). -/
def aes128GcmOutKey3 : Bytes :=
  hx 32 0x76961f40d92b469028903d31b21bb17d192769f1003bd5b1c91c6990eb7adaef

/-- `aes_128_gcm_in_key_4` (line 284). -/
def aes128GcmInKey4 : Bytes :=
  hx 32 0xc5ba8ef8bb0880c687f6a1ed92bc3570cb0b6cd0279c6f4fa68bb4d676f6429f

/-- `aes_128_gcm_out_key_4` (line 288). -/
def aes128GcmOutKey4 : Bytes :=
  hx 32 0x73182a453b7b9c7435382bccf0ef068a15677999f960bb6b02ce27f7240ec4e2

/-- `aes_128_gcm_alert_with_padding` (line 297). -/
def aes128GcmAlertWithPadding : Bytes :=
  hx 34 0x170303001dc2d6c225995177e84726e4886d5ea79383e5d529cd8339fbbfcafe2418

/-- `aes_256_gcm_alert_with_padding` (line 302). -/
def aes256GcmAlertWithPadding : Bytes :=
  hx 34 0x170303001d14ddc86ec49036e8a4d1f269933545f03b0fe9ffd8b02acd1e41f7139e

/-- `chacha_poly_alert_with_padding` (line 307). -/
def chachaPolyAlertWithPadding : Bytes :=
  hx 34 0x170303001df975d990450654f063e7b6a0514c2714c9827e796071389802f451585a

/-- `aes_128_gcm_key_update_with_padding` (line 315). -/
def aes128GcmKeyUpdateWithPadding : Bytes :=
  hx 37 0x1703030020dbd6d724994777e84726e4886d7432e311a73b42d0073f28ea60e30e8eb498fd

/-- `aes_256_gcm_key_update_with_padding` (line 320). -/
def aes256GcmKeyUpdateWithPadding : Bytes :=
  hx 37 0x17030300200ddddd6fc48636e8a4d1f269930e7835adc07e732ba7fd617ff9a65a51c36b6d

/-- `chacha_poly_key_update_with_padding` (line 325). -/
def chachaPolyKeyUpdateWithPadding : Bytes :=
  hx 37 0x1703030020e075cc91451054f063e7b6a0519fbd098e83bda4b515bea5196cccc008556ad0

/-- `aes_128_gcm_advanced_record` (line 331). -/
def aes128GcmAdvancedRecord : Bytes :=
  hx 28 0x1703030017dd99ebef48292cd4c372a000740372d2ae9aad31cfd274

/-- `aes_256_gcm_advanced_record` (line 336). -/
def aes256GcmAdvancedRecord : Bytes :=
  hx 28 0x17030300179cd5972e76baf56af644c92235460301c0a013ad35be00

/-- `chacha_poly_advanced_record` (line 341). -/
def chachaPolyAdvancedRecord : Bytes :=
  hx 28 0x1703030017c4e48ccaf036bd9bc146bbc6192404f9a2d2da5d1afe78

end S2A.Conform.Data
