import Verif.Proofs.LfvmSponge

/-!
# A known digest, round by round

The rounds of the permutation for the message "abc", each checked by evaluation; the hash of the specification is the published one.
-/

namespace Tosca.Proofs.Lfvm.Keccak

open Tosca Tosca.Model.Lfvm.Keccak

deriving instance DecidableEq for Lanes

theorem abc0 : round1 (round0 ⟨0x1636261, 0x0, 0x0, 0x0, 0x0, 0x0, 0x0, 0x0, 0x0, 0x0, 0x0, 0x0, 0x0, 0x0, 0x0, 0x0, 0x8000000000000000, 0x0, 0x0, 0x0, 0x0, 0x0, 0x0, 0x0, 0x0⟩ 0x1) 0x8082 =
    ⟨0xb6b21630dc026e64, 0x52ba4c56c5443c02, 0xded88d32d221a9bb, 0x535904cb1907aa56, 0xe991b3eb3a57a2ac, 0xeb855fc9f3e0a146, 0xc8dc57e61ea49e20, 0xc79089c798424af5, 0x27b647be0009fc0a, 0x744d8cf0e8f16279, 0x6f3510a79cc66f45, 0x1723ff0092b34376, 0x5e59853074605839, 0x918e737fd5e1ebc6, 0x94433808356fc6f1, 0x90a84b0c6728e506, 0xd4188ab88f232267, 0x2a670ca60fa64406, 0x11d916f3e7a3c06f, 0xac1fbeff27ca0496, 0xbca7ccc0ecc6a273, 0xd1aab11697c8054e, 0x870bd6f6841f1f6, 0x9326ada5ccef36e0, 0xd4ca5839a234e7ce⟩ := by decide +kernel

theorem abc1 : round1 (round0 ⟨0xb6b21630dc026e64, 0x52ba4c56c5443c02, 0xded88d32d221a9bb, 0x535904cb1907aa56, 0xe991b3eb3a57a2ac, 0xeb855fc9f3e0a146, 0xc8dc57e61ea49e20, 0xc79089c798424af5, 0x27b647be0009fc0a, 0x744d8cf0e8f16279, 0x6f3510a79cc66f45, 0x1723ff0092b34376, 0x5e59853074605839, 0x918e737fd5e1ebc6, 0x94433808356fc6f1, 0x90a84b0c6728e506, 0xd4188ab88f232267, 0x2a670ca60fa64406, 0x11d916f3e7a3c06f, 0xac1fbeff27ca0496, 0xbca7ccc0ecc6a273, 0xd1aab11697c8054e, 0x870bd6f6841f1f6, 0x9326ada5ccef36e0, 0xd4ca5839a234e7ce⟩ 0x800000000000808a) 0x8000000080008000 =
    ⟨0xe0c2c79192c46b5, 0x5c76741a579886e1, 0x3a0180758acbf2ec, 0x2b459935eb34a4ae, 0xbc2d1c2ce932df28, 0xee8b9c4fdc46a6c0, 0xe1371e96fbaf5e5b, 0x2befb93d67f60fc2, 0xcb3c671c994edf25, 0x1bcc5eb3db7d9cba, 0x9f8f1c348c2bef4c, 0x4d6e61b6248ed041, 0xaf41a881e57332ef, 0xa3318d1b85e6baee, 0xd346917643b931df, 0xd8afef82fc4fdfac, 0x88553b2645021058, 0xa4a4c3fb8b5cfdc2, 0x182265eae5acd485, 0x7e838b9f32755c81, 0x320c917b3189056b, 0x1bc40b84fddc62e1, 0x83c91087c997ea27, 0xc8a268a4e77b364b, 0x6603c31ff29c66c⟩ := by decide +kernel

theorem abc2 : round1 (round0 ⟨0xe0c2c79192c46b5, 0x5c76741a579886e1, 0x3a0180758acbf2ec, 0x2b459935eb34a4ae, 0xbc2d1c2ce932df28, 0xee8b9c4fdc46a6c0, 0xe1371e96fbaf5e5b, 0x2befb93d67f60fc2, 0xcb3c671c994edf25, 0x1bcc5eb3db7d9cba, 0x9f8f1c348c2bef4c, 0x4d6e61b6248ed041, 0xaf41a881e57332ef, 0xa3318d1b85e6baee, 0xd346917643b931df, 0xd8afef82fc4fdfac, 0x88553b2645021058, 0xa4a4c3fb8b5cfdc2, 0x182265eae5acd485, 0x7e838b9f32755c81, 0x320c917b3189056b, 0x1bc40b84fddc62e1, 0x83c91087c997ea27, 0xc8a268a4e77b364b, 0x6603c31ff29c66c⟩ 0x808b) 0x80000001 =
    ⟨0xb8bf4f65f9169b27, 0xea27bcf57b85c834, 0x6c225d7d604c4ebb, 0x5ce98137eba69953, 0x1513adbe7b71d2cd, 0x1b4243588a86630f, 0x49651e06283451af, 0x3822c89fc802ce4c, 0xad095c1ac5c823e6, 0xa24ea521503cfb7a, 0x1e8c73e94b2a7313, 0xb3abfde7ad6c4aa6, 0xa3f7d01f77c79e7, 0xb7eb88336f6ea4e2, 0xdcf5f20bb8636880, 0xca1eb3d63ac863c, 0xdbd29172a686a96a, 0xe9c613854f994069, 0xc83141e8d070e238, 0x2f4bd936dec5af59, 0x3f3e82fbfb8c34e3, 0xdf9edba153642782, 0x64ffd59ed11038b1, 0x95b064a8689c903f, 0x1dfb04d45060708b⟩ := by decide +kernel

theorem abc3 : round1 (round0 ⟨0xb8bf4f65f9169b27, 0xea27bcf57b85c834, 0x6c225d7d604c4ebb, 0x5ce98137eba69953, 0x1513adbe7b71d2cd, 0x1b4243588a86630f, 0x49651e06283451af, 0x3822c89fc802ce4c, 0xad095c1ac5c823e6, 0xa24ea521503cfb7a, 0x1e8c73e94b2a7313, 0xb3abfde7ad6c4aa6, 0xa3f7d01f77c79e7, 0xb7eb88336f6ea4e2, 0xdcf5f20bb8636880, 0xca1eb3d63ac863c, 0xdbd29172a686a96a, 0xe9c613854f994069, 0xc83141e8d070e238, 0x2f4bd936dec5af59, 0x3f3e82fbfb8c34e3, 0xdf9edba153642782, 0x64ffd59ed11038b1, 0x95b064a8689c903f, 0x1dfb04d45060708b⟩ 0x8000000080008081) 0x8000000000008009 =
    ⟨0xe4fdef2d684cc642, 0x9d647f607f8b13a7, 0x7eb8bb335fa1c983, 0xa9811160dbf15e95, 0x2daba9c1250543bb, 0x5ff481275c8e7001, 0x82ef9690b3fb8994, 0xcb42184bf3dbafcd, 0x7de15c665b133728, 0x4106fd241f1f5a95, 0x2932b23376846559, 0xc566160db5f858f9, 0x9fd1193e136d8add, 0x2b853389d5dc2799, 0x985ab50f090e7e5f, 0x99d77bef83ae3aac, 0xcb4e5d8d0936fba3, 0x2d82e3e716bc9f48, 0x5b684c24c0109ffb, 0xd5aea2723a9b3884, 0x63e9064ebe19aab9, 0x611c49f17262f69b, 0x9b4d0e374b99cab5, 0x8686021a3c424bfd, 0xd91a7be2e452997f⟩ := by decide +kernel

theorem abc4 : round1 (round0 ⟨0xe4fdef2d684cc642, 0x9d647f607f8b13a7, 0x7eb8bb335fa1c983, 0xa9811160dbf15e95, 0x2daba9c1250543bb, 0x5ff481275c8e7001, 0x82ef9690b3fb8994, 0xcb42184bf3dbafcd, 0x7de15c665b133728, 0x4106fd241f1f5a95, 0x2932b23376846559, 0xc566160db5f858f9, 0x9fd1193e136d8add, 0x2b853389d5dc2799, 0x985ab50f090e7e5f, 0x99d77bef83ae3aac, 0xcb4e5d8d0936fba3, 0x2d82e3e716bc9f48, 0x5b684c24c0109ffb, 0xd5aea2723a9b3884, 0x63e9064ebe19aab9, 0x611c49f17262f69b, 0x9b4d0e374b99cab5, 0x8686021a3c424bfd, 0xd91a7be2e452997f⟩ 0x8a) 0x88 =
    ⟨0xbe86d440499461b, 0x34565929332dfcee, 0x173d70b119429a3e, 0xfd3d1b56386094a6, 0xd13a39fe9a8aa595, 0xaa6154d91265bcf6, 0xab4896aeae4a9118, 0x4014f52202bfe0b1, 0xd127d4f87f8da91d, 0x9a14d076ecfaa79b, 0x1231efb90d3d7c14, 0xa11c75140142d8dc, 0x9a946622b73255b6, 0x69e96bb3bb142bd1, 0xc4b68b1dda791c71, 0xd8012f80c1ebe859, 0x9cacac8cb218a40b, 0x102bcc19d9068016, 0xdf9f46c883d936ac, 0xa987f4177ec16625, 0x84538a17a9ba640a, 0x302c6f55ab3b3b40, 0xa343aeefba4ccef8, 0x6459f49887d5fa5d, 0xd3bac4cad4a42124⟩ := by decide +kernel

theorem abc5 : round1 (round0 ⟨0xbe86d440499461b, 0x34565929332dfcee, 0x173d70b119429a3e, 0xfd3d1b56386094a6, 0xd13a39fe9a8aa595, 0xaa6154d91265bcf6, 0xab4896aeae4a9118, 0x4014f52202bfe0b1, 0xd127d4f87f8da91d, 0x9a14d076ecfaa79b, 0x1231efb90d3d7c14, 0xa11c75140142d8dc, 0x9a946622b73255b6, 0x69e96bb3bb142bd1, 0xc4b68b1dda791c71, 0xd8012f80c1ebe859, 0x9cacac8cb218a40b, 0x102bcc19d9068016, 0xdf9f46c883d936ac, 0xa987f4177ec16625, 0x84538a17a9ba640a, 0x302c6f55ab3b3b40, 0xa343aeefba4ccef8, 0x6459f49887d5fa5d, 0xd3bac4cad4a42124⟩ 0x80008009) 0x8000000a =
    ⟨0xfa2c3164b2758196, 0x25b1709135c90273, 0x4bf4884789ff7c83, 0xbdd65db776d01862, 0x5db39f94e6775f67, 0x85cd6c87ab087022, 0x1d40ac0e0fbac124, 0x6cc59c8d7aa20a2b, 0x7a624c8858c8c6e2, 0xe0ce5c9d1efc3e63, 0x8104aa7f37cf94ba, 0x6d428e93f9ba6deb, 0x11c20a437dc654a2, 0x175b59a419fd6058, 0x8b50d44026f4642d, 0xd0bee533b892fb38, 0xf788a4bade4aff09, 0x9a39bf51c9d27e37, 0x4cabfaa79b4e641b, 0xa3c0a77b16e8bc78, 0x5ec59b57f32b6d3d, 0x9ce51d67562c39f4, 0x47db84dbc2537669, 0xbcface16c82d94bd, 0x7b2f0f0b00812b18⟩ := by decide +kernel

theorem abc6 : round1 (round0 ⟨0xfa2c3164b2758196, 0x25b1709135c90273, 0x4bf4884789ff7c83, 0xbdd65db776d01862, 0x5db39f94e6775f67, 0x85cd6c87ab087022, 0x1d40ac0e0fbac124, 0x6cc59c8d7aa20a2b, 0x7a624c8858c8c6e2, 0xe0ce5c9d1efc3e63, 0x8104aa7f37cf94ba, 0x6d428e93f9ba6deb, 0x11c20a437dc654a2, 0x175b59a419fd6058, 0x8b50d44026f4642d, 0xd0bee533b892fb38, 0xf788a4bade4aff09, 0x9a39bf51c9d27e37, 0x4cabfaa79b4e641b, 0xa3c0a77b16e8bc78, 0x5ec59b57f32b6d3d, 0x9ce51d67562c39f4, 0x47db84dbc2537669, 0xbcface16c82d94bd, 0x7b2f0f0b00812b18⟩ 0x8000808b) 0x800000000000008b =
    ⟨0x16f16f5025ce3a90, 0x9ee280e6818cc98, 0xe7e146db48a5543a, 0xf2ed18f0bc9bc19f, 0xbdb9153c13fa6815, 0xb22437dc93f94445, 0x3dad011961bc9ed4, 0x9180b95a60996dd6, 0xc1fbfc9319091759, 0x496f58d61e4d2cee, 0x7c180ad50839117c, 0x37baf487d74d4e12, 0xdfb38c44d6898655, 0xb98711fdf8601711, 0xe0dc5cbdf4a299b, 0x9d60d5ecfa2875d2, 0x7aeef79cc4d8502c, 0x99968daa22bde032, 0x9e5449363ce4569f, 0xa13f73eb12a56e09, 0x6a83ddcdcfb2b6cc, 0x887eab821191df30, 0xf604ddacb6f81231, 0xa591f5dfe147a846, 0xa5e545d18e19c7de⟩ := by decide +kernel

theorem abc7 : round1 (round0 ⟨0x16f16f5025ce3a90, 0x9ee280e6818cc98, 0xe7e146db48a5543a, 0xf2ed18f0bc9bc19f, 0xbdb9153c13fa6815, 0xb22437dc93f94445, 0x3dad011961bc9ed4, 0x9180b95a60996dd6, 0xc1fbfc9319091759, 0x496f58d61e4d2cee, 0x7c180ad50839117c, 0x37baf487d74d4e12, 0xdfb38c44d6898655, 0xb98711fdf8601711, 0xe0dc5cbdf4a299b, 0x9d60d5ecfa2875d2, 0x7aeef79cc4d8502c, 0x99968daa22bde032, 0x9e5449363ce4569f, 0xa13f73eb12a56e09, 0x6a83ddcdcfb2b6cc, 0x887eab821191df30, 0xf604ddacb6f81231, 0xa591f5dfe147a846, 0xa5e545d18e19c7de⟩ 0x8000000000008089) 0x8000000000008003 =
    ⟨0x74e813fe982441e4, 0x680c902f5a961737, 0x78674077b2f18bab, 0x2534e49b8a16979c, 0x2d2cf0886d36aeb9, 0x2c4dbad9acf8d95c, 0x3dee87a4e8cc0226, 0x3e96eea60e461969, 0x908d80017301ace9, 0xf497227f7d6144c9, 0x52cb255be8310a8f, 0xf4f4c615a370ef17, 0x451519428c8b396, 0x943e81315a80b622, 0xb8c195cb77250e9a, 0xad9c5d4dc9cebf77, 0x885d805890b2f07c, 0xf6e6cce1febaec41, 0xede59ac7b233effe, 0xaf745694be6cf2f9, 0x98ceb9ee1bb302a7, 0xdf44847dc5d63118, 0x386aa7467d27a80f, 0x29948133c3179a3f, 0xc09098a932ce6b50⟩ := by decide +kernel

theorem abc8 : round1 (round0 ⟨0x74e813fe982441e4, 0x680c902f5a961737, 0x78674077b2f18bab, 0x2534e49b8a16979c, 0x2d2cf0886d36aeb9, 0x2c4dbad9acf8d95c, 0x3dee87a4e8cc0226, 0x3e96eea60e461969, 0x908d80017301ace9, 0xf497227f7d6144c9, 0x52cb255be8310a8f, 0xf4f4c615a370ef17, 0x451519428c8b396, 0x943e81315a80b622, 0xb8c195cb77250e9a, 0xad9c5d4dc9cebf77, 0x885d805890b2f07c, 0xf6e6cce1febaec41, 0xede59ac7b233effe, 0xaf745694be6cf2f9, 0x98ceb9ee1bb302a7, 0xdf44847dc5d63118, 0x386aa7467d27a80f, 0x29948133c3179a3f, 0xc09098a932ce6b50⟩ 0x8000000000008002) 0x8000000000000080 =
    ⟨0x9c5c28927c86a8da, 0x884b3598533edc0b, 0xc0e995b5802a89d9, 0x72a2266d9c6c5aa9, 0x292e7bfecfb833ed, 0xcafbb54fb7e9ca06, 0x2d3e33ba83bc4a68, 0xa077a28db237785a, 0x79b3a4f450651e88, 0x23477e73190be355, 0xdc69b5dccbdc1f46, 0xa77ab98df2b20c68, 0x8e8ff70edf455307, 0x911523ac7695aecd, 0xaad756400376c830, 0x91a9d11f9ded8a1a, 0xc0c1edaec88079f6, 0xc82b1a5edc3f0d9d, 0x15419f8d9768e76e, 0x5a7c43762a759bf3, 0x4ed5f88d91fbeb21, 0xf88149b3aa49bd13, 0x7110bf9ff13a793, 0xfac29ac328e70d32, 0x6b814212e5da9ab7⟩ := by decide +kernel

theorem abc9 : round1 (round0 ⟨0x9c5c28927c86a8da, 0x884b3598533edc0b, 0xc0e995b5802a89d9, 0x72a2266d9c6c5aa9, 0x292e7bfecfb833ed, 0xcafbb54fb7e9ca06, 0x2d3e33ba83bc4a68, 0xa077a28db237785a, 0x79b3a4f450651e88, 0x23477e73190be355, 0xdc69b5dccbdc1f46, 0xa77ab98df2b20c68, 0x8e8ff70edf455307, 0x911523ac7695aecd, 0xaad756400376c830, 0x91a9d11f9ded8a1a, 0xc0c1edaec88079f6, 0xc82b1a5edc3f0d9d, 0x15419f8d9768e76e, 0x5a7c43762a759bf3, 0x4ed5f88d91fbeb21, 0xf88149b3aa49bd13, 0x7110bf9ff13a793, 0xfac29ac328e70d32, 0x6b814212e5da9ab7⟩ 0x800a) 0x800000008000000a =
    ⟨0x4fbf9834be58f50a, 0xa382306d97bc5c43, 0xd0d04bd7f6f74908, 0x4124d4acce720646, 0x95277fbd563c9108, 0x825610fac5ad1c4b, 0xcc010750bb04a5a4, 0xfc143ed7f72415b3, 0xe8761635d6fa9a10, 0x4992feacecb6d2fb, 0xa0be6be5d1a6b333, 0xc9c968485eb39acc, 0x823225e07c6a50ac, 0x4b705d8a9255ad3b, 0x30572ecb5f6395d8, 0x8f7992d091aab412, 0xa951a5a1995db33d, 0xe18a94d5f4dbeae5, 0xaaceaa4ca9b2d1ec, 0x6f9fa015671a4666, 0x3f76c625ac0e04c3, 0xbb2518ead89e75a4, 0x77b258640ccbb185, 0xcae48083901441f, 0xc4282458a55c7de9⟩ := by decide +kernel

theorem abc10 : round1 (round0 ⟨0x4fbf9834be58f50a, 0xa382306d97bc5c43, 0xd0d04bd7f6f74908, 0x4124d4acce720646, 0x95277fbd563c9108, 0x825610fac5ad1c4b, 0xcc010750bb04a5a4, 0xfc143ed7f72415b3, 0xe8761635d6fa9a10, 0x4992feacecb6d2fb, 0xa0be6be5d1a6b333, 0xc9c968485eb39acc, 0x823225e07c6a50ac, 0x4b705d8a9255ad3b, 0x30572ecb5f6395d8, 0x8f7992d091aab412, 0xa951a5a1995db33d, 0xe18a94d5f4dbeae5, 0xaaceaa4ca9b2d1ec, 0x6f9fa015671a4666, 0x3f76c625ac0e04c3, 0xbb2518ead89e75a4, 0x77b258640ccbb185, 0xcae48083901441f, 0xc4282458a55c7de9⟩ 0x8000000080008081) 0x8000000000008080 =
    ⟨0xd04cb71b9cabae45, 0x2b95a1c53c15ddb, 0xe0359c6afad5997d, 0x20b04cab2e156651, 0x9ed1928b47ef075f, 0x50e70ea4ff13f65e, 0xbabd8e3be7ae7d5b, 0x2e1fc9a2e14b053d, 0xd63c979beb69a3d, 0x1b4a6a7b2c90efeb, 0xccc286cdd80b2771, 0xf4ec08e28f30de0e, 0x6d9ba0f2ac85dd5a, 0x282efa4e6c74ec42, 0x7413c7e910af00df, 0x54c2c2ad029da806, 0x8aeec5a24be29de5, 0xe77e7d22e835bd0d, 0xff9d163e79105bb7, 0x2a5668617e64ea38, 0xed01a27ccc8ce807, 0x746fdb23b019845a, 0xcd2e8354040aa7d0, 0xc9b721490efcaa93, 0x959f5f1c3fd9d4e5⟩ := by decide +kernel

theorem abc11 : round1 (round0 ⟨0xd04cb71b9cabae45, 0x2b95a1c53c15ddb, 0xe0359c6afad5997d, 0x20b04cab2e156651, 0x9ed1928b47ef075f, 0x50e70ea4ff13f65e, 0xbabd8e3be7ae7d5b, 0x2e1fc9a2e14b053d, 0xd63c979beb69a3d, 0x1b4a6a7b2c90efeb, 0xccc286cdd80b2771, 0xf4ec08e28f30de0e, 0x6d9ba0f2ac85dd5a, 0x282efa4e6c74ec42, 0x7413c7e910af00df, 0x54c2c2ad029da806, 0x8aeec5a24be29de5, 0xe77e7d22e835bd0d, 0xff9d163e79105bb7, 0x2a5668617e64ea38, 0xed01a27ccc8ce807, 0x746fdb23b019845a, 0xcd2e8354040aa7d0, 0xc9b721490efcaa93, 0x959f5f1c3fd9d4e5⟩ 0x80000001) 0x8000000080008008 =
    ⟨0x4fa945ea7a65034e, 0x67d6c826a87bd4c7, 0x36a0643ae3e6d1c0, 0x456c2da18ff544ec, 0xbba2151eac382c81, 0xfc2da5e99f7d606f, 0x2ca151d9b481c415, 0x4f2e524ab2335fe, 0x582aa0072a9df8cd, 0x2bd18639e5a7aefc, 0x84c8b945e8d84784, 0x728e60c1558bb1aa, 0x1ddf4b907b006066, 0x2a9a8bc201255fc0, 0x93dd9b50f44a2b8b, 0x162ec00c86ec814a, 0x4287101af69ea11e, 0xd6c478d8dcceddf1, 0x2eb1c10bd6e58d8c, 0x93d65dcbaec7d199, 0x610a29fa9d470304, 0x7ea977f114d5c8d2, 0x50866f9f76e840d5, 0x891c6dc9e7a9b7ce, 0xdaff5e6dcd41bd9a⟩ := by decide +kernel

theorem abc_rounds : rounds 12 0 ⟨0x1636261, 0x0, 0x0, 0x0, 0x0, 0x0, 0x0, 0x0, 0x0, 0x0, 0x0, 0x0, 0x0, 0x0, 0x0, 0x0, 0x8000000000000000, 0x0, 0x0, 0x0, 0x0, 0x0, 0x0, 0x0, 0x0⟩ =
    ⟨0x4fa945ea7a65034e, 0x67d6c826a87bd4c7, 0x36a0643ae3e6d1c0, 0x456c2da18ff544ec, 0xbba2151eac382c81, 0xfc2da5e99f7d606f, 0x2ca151d9b481c415, 0x4f2e524ab2335fe, 0x582aa0072a9df8cd, 0x2bd18639e5a7aefc, 0x84c8b945e8d84784, 0x728e60c1558bb1aa, 0x1ddf4b907b006066, 0x2a9a8bc201255fc0, 0x93dd9b50f44a2b8b, 0x162ec00c86ec814a, 0x4287101af69ea11e, 0xd6c478d8dcceddf1, 0x2eb1c10bd6e58d8c, 0x93d65dcbaec7d199, 0x610a29fa9d470304, 0x7ea977f114d5c8d2, 0x50866f9f76e840d5, 0x891c6dc9e7a9b7ce, 0xdaff5e6dcd41bd9a⟩ := by
  simp only [rounds, roundConstants, List.getD_cons_zero, List.getD_cons_succ, Nat.reduceAdd, abc0, abc1, abc2, abc3, abc4, abc5, abc6, abc7, abc8, abc9, abc10, abc11]

theorem abc_keccak : keccak [0x61, 0x62, 0x63] = [0x4fa945ea7a65034e, 0x67d6c826a87bd4c7, 0x36a0643ae3e6d1c0, 0x456c2da18ff544ec] := by
  have h : keccak [0x61, 0x62, 0x63] = (let s := store (rounds 12 0 ⟨0x1636261, 0x0, 0x0, 0x0, 0x0, 0x0, 0x0, 0x0, 0x0, 0x0, 0x0, 0x0, 0x0, 0x0, 0x0, 0x0, 0x8000000000000000, 0x0, 0x0, 0x0, 0x0, 0x0, 0x0, 0x0, 0x0⟩); [s 0, s 1, s 2, s 3]) := by
    rfl
  rw [h, abc_rounds]
  rfl

/-- Keccak-256 of "abc" is the published digest. -/
theorem abc : Spec.Keccak.keccak256 [0x61, 0x62, 0x63] = [0x4e, 0x03, 0x65, 0x7a, 0xea, 0x45, 0xa9, 0x4f, 0xc7, 0xd4, 0x7b, 0xa8, 0x26, 0xc8, 0xd6, 0x67, 0xc0, 0xd1, 0xe6, 0xe3, 0x3a, 0x64, 0xa0, 0x36, 0xec, 0x44, 0xf5, 0x8f, 0xa1, 0x2d, 0x6c, 0x45] := by
  rw [← keccak256_ok]
  unfold keccak256
  rw [abc_keccak]
  decide +kernel

end Tosca.Proofs.Lfvm.Keccak
