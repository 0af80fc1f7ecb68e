import Verif.Tests.Hex
import Verif.Model.Modes

/-! The vectors of tests/test_gostcipher.py evaluated on the model. -/

namespace Gost.Tests

#guard (Kuz.init (hex "8899aabbccddeeff0011223344556677fedcba98765432100123456789abcdef") >>= fun k => Kuz.encrypt k (hex "1122334455667700ffeeddccbbaa9988")) == .ok (hex "7f679d90bebc24305a468d42b9d4edcd")
#guard (Kuz.init (hex "8899aabbccddeeff0011223344556677fedcba98765432100123456789abcdef") >>= fun k => Kuz.decrypt k (hex "7f679d90bebc24305a468d42b9d4edcd")) == .ok (hex "1122334455667700ffeeddccbbaa9988")
#guard runCipher "kuznechik" (hex "8899aabbccddeeff0011223344556677fedcba98765432100123456789abcdef") modeEcb none none .enc (hex "1122334455667700ffeeddccbbaa998800112233445566778899aabbcceeff0a112233445566778899aabbcceeff0a002233445566778899aabbcceeff0a0011") == .ok (hex "7f679d90bebc24305a468d42b9d4edcdb429912c6e0032f9285452d76718d08bf0ca33549d247ceef3f5a5313bd4b157d0b09ccde830b9eb3a02c4c5aa8ada98")
#guard runCipher "kuznechik" (hex "8899aabbccddeeff0011223344556677fedcba98765432100123456789abcdef") modeEcb none none .dec (hex "7f679d90bebc24305a468d42b9d4edcdb429912c6e0032f9285452d76718d08bf0ca33549d247ceef3f5a5313bd4b157d0b09ccde830b9eb3a02c4c5aa8ada98") == .ok (hex "1122334455667700ffeeddccbbaa998800112233445566778899aabbcceeff0a112233445566778899aabbcceeff0a002233445566778899aabbcceeff0a0011")
#guard runCipher "kuznechik" (hex "8899aabbccddeeff0011223344556677fedcba98765432100123456789abcdef") modeEcb (some padMode1) none .enc (hex "1122334455667700ffeeddccbbaa998800112233445566778899aabbcceeff0a112233445566778899aabbcceeff0a002233445566778899aabbcceeff") == .ok (hex "7f679d90bebc24305a468d42b9d4edcdb429912c6e0032f9285452d76718d08bf0ca33549d247ceef3f5a5313bd4b157d88cdb756099f9d8d65789b2ce51425c")
#guard runCipher "kuznechik" (hex "8899aabbccddeeff0011223344556677fedcba98765432100123456789abcdef") modeEcb (some padMode1) none .dec (hex "7f679d90bebc24305a468d42b9d4edcdb429912c6e0032f9285452d76718d08bf0ca33549d247ceef3f5a5313bd4b157d88cdb756099f9d8d65789b2ce51425c") == .ok (hex "1122334455667700ffeeddccbbaa998800112233445566778899aabbcceeff0a112233445566778899aabbcceeff0a002233445566778899aabbcceeff000000")
#guard runCipher "kuznechik" (hex "8899aabbccddeeff0011223344556677fedcba98765432100123456789abcdef") modeCbc (some padMode1) (some (.bytearray (hex "1234567890abcef0a1b2c3d4e5f0011223344556677889901213141516171819"))) .enc (hex "1122334455667700ffeeddccbbaa998800112233445566778899aabbcceeff0a112233445566778899aabbcceeff0a002233445566778899aabbcceeff") == .ok (hex "689972d4a085fa4d90e52e3d6d7dcc272826e661b478eca6af1e8e448d5ea5acfe7babf1e91999e85640e8b0f49d90d0e28bb9029c31aa5fe5561192eb9c3f70")
#guard runCipher "kuznechik" (hex "8899aabbccddeeff0011223344556677fedcba98765432100123456789abcdef") modeCbc (some padMode1) (some (.bytearray (hex "1234567890abcef0a1b2c3d4e5f0011223344556677889901213141516171819"))) .dec (hex "689972d4a085fa4d90e52e3d6d7dcc272826e661b478eca6af1e8e448d5ea5acfe7babf1e91999e85640e8b0f49d90d0e28bb9029c31aa5fe5561192eb9c3f70") == .ok (hex "1122334455667700ffeeddccbbaa998800112233445566778899aabbcceeff0a112233445566778899aabbcceeff0a002233445566778899aabbcceeff000000")
#guard runCipher "kuznechik" (hex "8899aabbccddeeff0011223344556677fedcba98765432100123456789abcdef") modeEcb (some padMode2) none .enc (hex "1122334455667700ffeeddccbbaa998800112233445566778899aabbcceeff0a112233445566778899aabbcceeff0a002233445566778899aabbcceeff") == .ok (hex "7f679d90bebc24305a468d42b9d4edcdb429912c6e0032f9285452d76718d08bf0ca33549d247ceef3f5a5313bd4b157e2b775127f932ece262a6025c063dbcb94bec15e269cf1e506f02b994c0a8ea0")
#guard runCipher "kuznechik" (hex "8899aabbccddeeff0011223344556677fedcba98765432100123456789abcdef") modeEcb (some padMode2) none .dec (hex "7f679d90bebc24305a468d42b9d4edcdb429912c6e0032f9285452d76718d08bf0ca33549d247ceef3f5a5313bd4b157e2b775127f932ece262a6025c063dbcb94bec15e269cf1e506f02b994c0a8ea0") == .ok (hex "1122334455667700ffeeddccbbaa998800112233445566778899aabbcceeff0a112233445566778899aabbcceeff0a002233445566778899aabbcceeff80000000000000000000000000000000000000")
#guard runCipher "kuznechik" (hex "8899aabbccddeeff0011223344556677fedcba98765432100123456789abcdef") modeCbc (some padMode2) (some (.bytearray (hex "1234567890abcef0a1b2c3d4e5f0011223344556677889901213141516171819"))) .enc (hex "1122334455667700ffeeddccbbaa998800112233445566778899aabbcceeff0a112233445566778899aabbcceeff0a002233445566778899aabbcceeff") == .ok (hex "689972d4a085fa4d90e52e3d6d7dcc272826e661b478eca6af1e8e448d5ea5acfe7babf1e91999e85640e8b0f49d90d026125a8dde535f6147dbdebad28324be828ea5daf29f239f4732cd08bdf6ab18")
#guard runCipher "kuznechik" (hex "8899aabbccddeeff0011223344556677fedcba98765432100123456789abcdef") modeCbc (some padMode2) (some (.bytearray (hex "1234567890abcef0a1b2c3d4e5f0011223344556677889901213141516171819"))) .dec (hex "689972d4a085fa4d90e52e3d6d7dcc272826e661b478eca6af1e8e448d5ea5acfe7babf1e91999e85640e8b0f49d90d026125a8dde535f6147dbdebad28324be828ea5daf29f239f4732cd08bdf6ab18") == .ok (hex "1122334455667700ffeeddccbbaa998800112233445566778899aabbcceeff0a112233445566778899aabbcceeff0a002233445566778899aabbcceeff80000000000000000000000000000000000000")
#guard runCipher "kuznechik" (hex "8899aabbccddeeff0011223344556677fedcba98765432100123456789abcdef") modeEcb none none .enc (hex "1122334455667700ffeeddccbbaa") == .ok (hex "3cc342dfcd5a7bef4e801ca96d846fe6")
#guard runCipher "kuznechik" (hex "8899aabbccddeeff0011223344556677fedcba98765432100123456789abcdef") modeCbc none (some (.bytearray (hex "1234567890abcef0a1b2c3d4e5f0011223344556677889901213141516171819"))) .enc (hex "1122334455667700ffeeddccbbaa998800112233445566778899aabbcceeff0a112233445566778899aabbcceeff0a002233445566778899aabbcceeff0a0011") == .ok (hex "689972d4a085fa4d90e52e3d6d7dcc272826e661b478eca6af1e8e448d5ea5acfe7babf1e91999e85640e8b0f49d90d0167688065a895c631a2d9a1560b63970")
#guard runCipher "kuznechik" (hex "8899aabbccddeeff0011223344556677fedcba98765432100123456789abcdef") modeCbc none (some (.bytearray (hex "1234567890abcef0a1b2c3d4e5f0011223344556677889901213141516171819"))) .dec (hex "689972d4a085fa4d90e52e3d6d7dcc272826e661b478eca6af1e8e448d5ea5acfe7babf1e91999e85640e8b0f49d90d0167688065a895c631a2d9a1560b63970") == .ok (hex "1122334455667700ffeeddccbbaa998800112233445566778899aabbcceeff0a112233445566778899aabbcceeff0a002233445566778899aabbcceeff0a0011")
#guard runCipher "kuznechik" (hex "8899aabbccddeeff0011223344556677fedcba98765432100123456789abcdef") modeCbc none none .enc (hex "1122334455667700ffeeddccbbaa998800112233445566778899aabbcceeff0a112233445566778899aabbcceeff0a002233445566778899aabbcceeff0a0011") == .ok (hex "689972d4a085fa4d90e52e3d6d7dcc272826e661b478eca6af1e8e448d5ea5acfe7babf1e91999e85640e8b0f49d90d0167688065a895c631a2d9a1560b63970")
#guard runCipher "kuznechik" (hex "8899aabbccddeeff0011223344556677fedcba98765432100123456789abcdef") modeCbc none none .dec (hex "689972d4a085fa4d90e52e3d6d7dcc272826e661b478eca6af1e8e448d5ea5acfe7babf1e91999e85640e8b0f49d90d0167688065a895c631a2d9a1560b63970") == .ok (hex "1122334455667700ffeeddccbbaa998800112233445566778899aabbcceeff0a112233445566778899aabbcceeff0a002233445566778899aabbcceeff0a0011")
#guard runCipher "kuznechik" (hex "8899aabbccddeeff0011223344556677fedcba98765432100123456789abcdef") modeCfb none (some (.bytearray (hex "1234567890abcef0a1b2c3d4e5f0011223344556677889901213141516171819"))) .enc (hex "1122334455667700ffeeddccbbaa998800112233445566778899aabbcceeff0a112233445566778899aabbcceeff0a002233445566778899aabbcceeff0a0011") == .ok (hex "81800a59b1842b24ff1f795e897abd95ed5b47a7048cfab48fb521369d9326bf79f2a8eb5cc68d38842d264e97a238b54ffebecd4e922de6c75bd9dd44fbf4d1")
#guard runCipher "kuznechik" (hex "8899aabbccddeeff0011223344556677fedcba98765432100123456789abcdef") modeCfb none (some (.bytearray (hex "1234567890abcef0a1b2c3d4e5f0011223344556677889901213141516171819"))) .dec (hex "81800a59b1842b24ff1f795e897abd95ed5b47a7048cfab48fb521369d9326bf79f2a8eb5cc68d38842d264e97a238b54ffebecd4e922de6c75bd9dd44fbf4d1") == .ok (hex "1122334455667700ffeeddccbbaa998800112233445566778899aabbcceeff0a112233445566778899aabbcceeff0a002233445566778899aabbcceeff0a0011")
#guard runCipher "kuznechik" (hex "8899aabbccddeeff0011223344556677fedcba98765432100123456789abcdef") modeCfb none (some (.bytearray (hex "1234567890abcef0a1b2c3d4e5f0011223344556677889901213141516171819"))) .enc (hex "1122334455667700ffeeddccbbaa998800112233445566778899aabbcceeff0a112233445566778899aabbcceeff0a002233445566778899aabbcceeff") == .ok (hex "81800a59b1842b24ff1f795e897abd95ed5b47a7048cfab48fb521369d9326bf79f2a8eb5cc68d38842d264e97a238b54ffebecd4e922de6c75bd9dd44")
#guard runCipher "kuznechik" (hex "8899aabbccddeeff0011223344556677fedcba98765432100123456789abcdef") modeCfb none (some (.bytearray (hex "1234567890abcef0a1b2c3d4e5f0011223344556677889901213141516171819"))) .dec (hex "81800a59b1842b24ff1f795e897abd95ed5b47a7048cfab48fb521369d9326bf79f2a8eb5cc68d38842d264e97a238b54ffebecd4e922de6c75bd9dd44") == .ok (hex "1122334455667700ffeeddccbbaa998800112233445566778899aabbcceeff0a112233445566778899aabbcceeff0a002233445566778899aabbcceeff")
#guard runCipher "kuznechik" (hex "8899aabbccddeeff0011223344556677fedcba98765432100123456789abcdef") modeCfb none none .enc (hex "1122334455667700ffeeddccbbaa998800112233445566778899aabbcceeff0a112233445566778899aabbcceeff0a002233445566778899aabbcceeff0a0011") == .ok (hex "81800a59b1842b24ff1f795e897abd95ed5b47a7048cfab48fb521369d9326bf79f2a8eb5cc68d38842d264e97a238b54ffebecd4e922de6c75bd9dd44fbf4d1")
#guard runCipher "kuznechik" (hex "8899aabbccddeeff0011223344556677fedcba98765432100123456789abcdef") modeCfb none none .dec (hex "81800a59b1842b24ff1f795e897abd95ed5b47a7048cfab48fb521369d9326bf79f2a8eb5cc68d38842d264e97a238b54ffebecd4e922de6c75bd9dd44fbf4d1") == .ok (hex "1122334455667700ffeeddccbbaa998800112233445566778899aabbcceeff0a112233445566778899aabbcceeff0a002233445566778899aabbcceeff0a0011")
#guard runCipher "kuznechik" (hex "8899aabbccddeeff0011223344556677fedcba98765432100123456789abcdef") modeCfb none none .enc (hex "1122334455667700ffeeddccbbaa998800112233445566778899aabbcceeff0a112233445566778899aabbcceeff0a002233445566778899aabbcceeff") == .ok (hex "81800a59b1842b24ff1f795e897abd95ed5b47a7048cfab48fb521369d9326bf79f2a8eb5cc68d38842d264e97a238b54ffebecd4e922de6c75bd9dd44")
#guard runCipher "kuznechik" (hex "8899aabbccddeeff0011223344556677fedcba98765432100123456789abcdef") modeCfb none none .dec (hex "81800a59b1842b24ff1f795e897abd95ed5b47a7048cfab48fb521369d9326bf79f2a8eb5cc68d38842d264e97a238b54ffebecd4e922de6c75bd9dd44") == .ok (hex "1122334455667700ffeeddccbbaa998800112233445566778899aabbcceeff0a112233445566778899aabbcceeff0a002233445566778899aabbcceeff")
#guard runCipher "kuznechik" (hex "8899aabbccddeeff0011223344556677fedcba98765432100123456789abcdef") modeOfb none (some (.bytearray (hex "1234567890abcef0a1b2c3d4e5f0011223344556677889901213141516171819"))) .enc (hex "1122334455667700ffeeddccbbaa998800112233445566778899aabbcceeff0a112233445566778899aabbcceeff0a002233445566778899aabbcceeff0a0011") == .ok (hex "81800a59b1842b24ff1f795e897abd95ed5b47a7048cfab48fb521369d9326bf66a257ac3ca0b8b1c80fe7fc10288a13203ebbc066138660a0292243f6903150")
#guard runCipher "kuznechik" (hex "8899aabbccddeeff0011223344556677fedcba98765432100123456789abcdef") modeOfb none (some (.bytearray (hex "1234567890abcef0a1b2c3d4e5f0011223344556677889901213141516171819"))) .dec (hex "81800a59b1842b24ff1f795e897abd95ed5b47a7048cfab48fb521369d9326bf66a257ac3ca0b8b1c80fe7fc10288a13203ebbc066138660a0292243f6903150") == .ok (hex "1122334455667700ffeeddccbbaa998800112233445566778899aabbcceeff0a112233445566778899aabbcceeff0a002233445566778899aabbcceeff0a0011")
#guard runCipher "kuznechik" (hex "8899aabbccddeeff0011223344556677fedcba98765432100123456789abcdef") modeOfb none (some (.bytearray (hex "1234567890abcef0a1b2c3d4e5f0011223344556677889901213141516171819"))) .enc (hex "1122334455667700ffeeddccbbaa998800112233445566778899aabbcceeff0a112233445566778899aabbcceeff0a002233445566778899aabbcceeff") == .ok (hex "81800a59b1842b24ff1f795e897abd95ed5b47a7048cfab48fb521369d9326bf66a257ac3ca0b8b1c80fe7fc10288a13203ebbc066138660a0292243f6")
#guard runCipher "kuznechik" (hex "8899aabbccddeeff0011223344556677fedcba98765432100123456789abcdef") modeOfb none (some (.bytearray (hex "1234567890abcef0a1b2c3d4e5f0011223344556677889901213141516171819"))) .dec (hex "81800a59b1842b24ff1f795e897abd95ed5b47a7048cfab48fb521369d9326bf66a257ac3ca0b8b1c80fe7fc10288a13203ebbc066138660a0292243f6") == .ok (hex "1122334455667700ffeeddccbbaa998800112233445566778899aabbcceeff0a112233445566778899aabbcceeff0a002233445566778899aabbcceeff")
#guard runCipher "kuznechik" (hex "8899aabbccddeeff0011223344556677fedcba98765432100123456789abcdef") modeOfb none none .enc (hex "1122334455667700ffeeddccbbaa998800112233445566778899aabbcceeff0a112233445566778899aabbcceeff0a002233445566778899aabbcceeff0a0011") == .ok (hex "81800a59b1842b24ff1f795e897abd95ed5b47a7048cfab48fb521369d9326bf66a257ac3ca0b8b1c80fe7fc10288a13203ebbc066138660a0292243f6903150")
#guard runCipher "kuznechik" (hex "8899aabbccddeeff0011223344556677fedcba98765432100123456789abcdef") modeOfb none none .dec (hex "81800a59b1842b24ff1f795e897abd95ed5b47a7048cfab48fb521369d9326bf66a257ac3ca0b8b1c80fe7fc10288a13203ebbc066138660a0292243f6903150") == .ok (hex "1122334455667700ffeeddccbbaa998800112233445566778899aabbcceeff0a112233445566778899aabbcceeff0a002233445566778899aabbcceeff0a0011")
#guard runCipher "kuznechik" (hex "8899aabbccddeeff0011223344556677fedcba98765432100123456789abcdef") modeOfb none none .enc (hex "1122334455667700ffeeddccbbaa998800112233445566778899aabbcceeff0a112233445566778899aabbcceeff0a002233445566778899aabbcceeff") == .ok (hex "81800a59b1842b24ff1f795e897abd95ed5b47a7048cfab48fb521369d9326bf66a257ac3ca0b8b1c80fe7fc10288a13203ebbc066138660a0292243f6")
#guard runCipher "kuznechik" (hex "8899aabbccddeeff0011223344556677fedcba98765432100123456789abcdef") modeOfb none none .dec (hex "81800a59b1842b24ff1f795e897abd95ed5b47a7048cfab48fb521369d9326bf66a257ac3ca0b8b1c80fe7fc10288a13203ebbc066138660a0292243f6") == .ok (hex "1122334455667700ffeeddccbbaa998800112233445566778899aabbcceeff0a112233445566778899aabbcceeff0a002233445566778899aabbcceeff")
#guard runCipher "kuznechik" (hex "8899aabbccddeeff0011223344556677fedcba98765432100123456789abcdef") modeCtr none (some (.bytearray (hex "1234567890abcef0"))) .enc (hex "1122334455667700ffeeddccbbaa998800112233445566778899aabbcceeff0a112233445566778899aabbcceeff0a002233445566778899aabbcceeff0a0011") == .ok (hex "f195d8bec10ed1dbd57b5fa240bda1b885eee733f6a13e5df33ce4b33c45dee4a5eae88be6356ed3d5e877f13564a3a5cb91fab1f20cbab6d1c6d15820bdba73")
#guard runCipher "kuznechik" (hex "8899aabbccddeeff0011223344556677fedcba98765432100123456789abcdef") modeCtr none (some (.bytearray (hex "1234567890abcef0"))) .dec (hex "f195d8bec10ed1dbd57b5fa240bda1b885eee733f6a13e5df33ce4b33c45dee4a5eae88be6356ed3d5e877f13564a3a5cb91fab1f20cbab6d1c6d15820bdba73") == .ok (hex "1122334455667700ffeeddccbbaa998800112233445566778899aabbcceeff0a112233445566778899aabbcceeff0a002233445566778899aabbcceeff0a0011")
#guard runCipher "kuznechik" (hex "8899aabbccddeeff0011223344556677fedcba98765432100123456789abcdef") modeCtr none (some (.bytearray (hex "1234567890abcef0"))) .enc (hex "1122334455667700ffeeddccbbaa998800112233445566778899aabbcceeff0a112233445566778899aabbcceeff0a002233445566778899aabbcceeff") == .ok (hex "f195d8bec10ed1dbd57b5fa240bda1b885eee733f6a13e5df33ce4b33c45dee4a5eae88be6356ed3d5e877f13564a3a5cb91fab1f20cbab6d1c6d15820")
#guard runCipher "kuznechik" (hex "8899aabbccddeeff0011223344556677fedcba98765432100123456789abcdef") modeCtr none (some (.bytearray (hex "1234567890abcef0"))) .dec (hex "f195d8bec10ed1dbd57b5fa240bda1b885eee733f6a13e5df33ce4b33c45dee4a5eae88be6356ed3d5e877f13564a3a5cb91fab1f20cbab6d1c6d15820") == .ok (hex "1122334455667700ffeeddccbbaa998800112233445566778899aabbcceeff0a112233445566778899aabbcceeff0a002233445566778899aabbcceeff")
#guard runCipher "kuznechik" (hex "8899aabbccddeeff0011223344556677fedcba98765432100123456789abcdef") modeCtr none none .enc (hex "1122334455667700ffeeddccbbaa998800112233445566778899aabbcceeff0a112233445566778899aabbcceeff0a002233445566778899aabbcceeff0a0011") == .ok (hex "f195d8bec10ed1dbd57b5fa240bda1b885eee733f6a13e5df33ce4b33c45dee4a5eae88be6356ed3d5e877f13564a3a5cb91fab1f20cbab6d1c6d15820bdba73")
#guard runCipher "kuznechik" (hex "8899aabbccddeeff0011223344556677fedcba98765432100123456789abcdef") modeCtr none none .dec (hex "f195d8bec10ed1dbd57b5fa240bda1b885eee733f6a13e5df33ce4b33c45dee4a5eae88be6356ed3d5e877f13564a3a5cb91fab1f20cbab6d1c6d15820bdba73") == .ok (hex "1122334455667700ffeeddccbbaa998800112233445566778899aabbcceeff0a112233445566778899aabbcceeff0a002233445566778899aabbcceeff0a0011")
#guard runCipher "kuznechik" (hex "8899aabbccddeeff0011223344556677fedcba98765432100123456789abcdef") modeCtr none none .enc (hex "1122334455667700ffeeddccbbaa998800112233445566778899aabbcceeff0a112233445566778899aabbcceeff0a002233445566778899aabbcceeff") == .ok (hex "f195d8bec10ed1dbd57b5fa240bda1b885eee733f6a13e5df33ce4b33c45dee4a5eae88be6356ed3d5e877f13564a3a5cb91fab1f20cbab6d1c6d15820")
#guard runCipher "kuznechik" (hex "8899aabbccddeeff0011223344556677fedcba98765432100123456789abcdef") modeCtr none none .dec (hex "f195d8bec10ed1dbd57b5fa240bda1b885eee733f6a13e5df33ce4b33c45dee4a5eae88be6356ed3d5e877f13564a3a5cb91fab1f20cbab6d1c6d15820") == .ok (hex "1122334455667700ffeeddccbbaa998800112233445566778899aabbcceeff0a112233445566778899aabbcceeff0a002233445566778899aabbcceeff")
#guard runMac "kuznechik" (hex "8899aabbccddeeff0011223344556677fedcba98765432100123456789abcdef") [hex "1122334455667700ffeeddccbbaa998800112233445566778899aabbcceeff0a112233445566778899aabbcceeff0a002233445566778899aabbcceeff0a0011"] == .ok (hex "336f4d296059fbe34ddeb35b37749c67")
#guard runMac "kuznechik" (hex "8899aabbccddeeff0011223344556677fedcba98765432100123456789abcdef") [hex "1122334455667700ffeeddccbbaa998800112233445566778899aabbcceeff0a112233445566778899aabbcceeff0a002233445566778899aabbcceeff0a0011", hex "1122334455667700ffeeddccbbaa998800112233445566778899aabbcceeff0a112233445566778899aabbcceeff0a002233445566778899aabbcceeff0a0011"] == .ok (hex "83d2119c63a37f8e85624d900a2594b4")
#guard runMac "kuznechik" (hex "8899aabbccddeeff0011223344556677fedcba98765432100123456789abcdef") [hex "1122334455667700ffeeddccbbaa998800112233445566778899aabbcceeff0a112233445566778899aabbcceeff0a002233445566778899aabbcceeff"] == .ok (hex "1f031790a8327e74c8341eed4cda48bd")
#guard runMac "kuznechik" (hex "8899aabbccddeeff0011223344556677fedcba98765432100123456789abcdef") [hex "1122334455667700ffeeddccbbaa998800112233445566778899aabbcceeff0a112233445566778899aabbcceeff0a002233445566778899aabbcceeff", hex "1122334455667700ffeeddccbbaa998800112233445566778899aabbcceeff0a112233445566778899aabbcceeff0a002233445566778899aabbcceeff"] == .ok (hex "7d0347e54b8f6bfac93f735c0d72c23b")
#guard runMac "kuznechik" (hex "8899aabbccddeeff0011223344556677fedcba98765432100123456789abcdef") [hex "1122334455667700ffeeddccbbaa998800112233445566778899aabbcceeff0a112233445566778899aabbcceeff0a002233445566778899aabbcceeff1122334455667700ffeeddccbbaa998800112233445566778899aabbcceeff0a112233445566778899aabbcceeff0a002233445566778899aabbcceeff"] == .ok (hex "7d0347e54b8f6bfac93f735c0d72c23b")
#guard (Magma.init (hex "ffeeddccbbaa99887766554433221100f0f1f2f3f4f5f6f7f8f9fafbfcfdfeff") >>= fun k => Magma.encrypt k (hex "fedcba9876543210")) == .ok (hex "4ee901e5c2d8ca3d")
#guard (Magma.init (hex "ffeeddccbbaa99887766554433221100f0f1f2f3f4f5f6f7f8f9fafbfcfdfeff") >>= fun k => Magma.decrypt k (hex "4ee901e5c2d8ca3d")) == .ok (hex "fedcba9876543210")
#guard runCipher "magma" (hex "ffeeddccbbaa99887766554433221100f0f1f2f3f4f5f6f7f8f9fafbfcfdfeff") modeEcb none none .enc (hex "92def06b3c130a59db54c704f8189d204a98fb2e67a8024c8912409b17b57e41") == .ok (hex "2b073f0494f372a0de70e715d3556e4811d8d9e9eacfbc1e7c68260996c67efb")
#guard runCipher "magma" (hex "ffeeddccbbaa99887766554433221100f0f1f2f3f4f5f6f7f8f9fafbfcfdfeff") modeEcb none none .dec (hex "2b073f0494f372a0de70e715d3556e4811d8d9e9eacfbc1e7c68260996c67efb") == .ok (hex "92def06b3c130a59db54c704f8189d204a98fb2e67a8024c8912409b17b57e41")
#guard runCipher "magma" (hex "ffeeddccbbaa99887766554433221100f0f1f2f3f4f5f6f7f8f9fafbfcfdfeff") modeCbc none (some (.bytearray (hex "1234567890abcdef234567890abcdef134567890abcdef12"))) .enc (hex "92def06b3c130a59db54c704f8189d204a98fb2e67a8024c8912409b17b57e41") == .ok (hex "96d1b05eea683919aff76129abb937b95058b4a1c4bc001920b78b1a7cd7e667")
#guard runCipher "magma" (hex "ffeeddccbbaa99887766554433221100f0f1f2f3f4f5f6f7f8f9fafbfcfdfeff") modeCbc none (some (.bytearray (hex "1234567890abcdef234567890abcdef134567890abcdef12"))) .dec (hex "96d1b05eea683919aff76129abb937b95058b4a1c4bc001920b78b1a7cd7e667") == .ok (hex "92def06b3c130a59db54c704f8189d204a98fb2e67a8024c8912409b17b57e41")
#guard runCipher "magma" (hex "ffeeddccbbaa99887766554433221100f0f1f2f3f4f5f6f7f8f9fafbfcfdfeff") modeCbc none none .enc (hex "92def06b3c130a59db54c704f8189d204a98fb2e67a8024c8912409b17b57e41") == .ok (hex "96d1b05eea683919aff76129abb937b95058b4a1c4bc001920b78b1a7cd7e667")
#guard runCipher "magma" (hex "ffeeddccbbaa99887766554433221100f0f1f2f3f4f5f6f7f8f9fafbfcfdfeff") modeCbc none none .dec (hex "96d1b05eea683919aff76129abb937b95058b4a1c4bc001920b78b1a7cd7e667") == .ok (hex "92def06b3c130a59db54c704f8189d204a98fb2e67a8024c8912409b17b57e41")
#guard runCipher "magma" (hex "ffeeddccbbaa99887766554433221100f0f1f2f3f4f5f6f7f8f9fafbfcfdfeff") modeCfb none (some (.bytearray (hex "1234567890abcdef234567890abcdef1"))) .enc (hex "92def06b3c130a59db54c704f8189d204a98fb2e67a8024c8912409b17b57e41") == .ok (hex "db37e0e266903c830d46644c1f9a089c24bdd2035315d38bbcc0321421075505")
#guard runCipher "magma" (hex "ffeeddccbbaa99887766554433221100f0f1f2f3f4f5f6f7f8f9fafbfcfdfeff") modeCfb none (some (.bytearray (hex "1234567890abcdef234567890abcdef1"))) .dec (hex "db37e0e266903c830d46644c1f9a089c24bdd2035315d38bbcc0321421075505") == .ok (hex "92def06b3c130a59db54c704f8189d204a98fb2e67a8024c8912409b17b57e41")
#guard runCipher "magma" (hex "ffeeddccbbaa99887766554433221100f0f1f2f3f4f5f6f7f8f9fafbfcfdfeff") modeCfb none (some (.bytearray (hex "1234567890abcdef234567890abcdef1"))) .enc (hex "92def06b3c130a59db54c704f8189d204a98fb2e67a8024c8912409b17") == .ok (hex "db37e0e266903c830d46644c1f9a089c24bdd2035315d38bbcc0321421")
#guard runCipher "magma" (hex "ffeeddccbbaa99887766554433221100f0f1f2f3f4f5f6f7f8f9fafbfcfdfeff") modeCfb none (some (.bytearray (hex "1234567890abcdef234567890abcdef1"))) .dec (hex "db37e0e266903c830d46644c1f9a089c24bdd2035315d38bbcc0321421") == .ok (hex "92def06b3c130a59db54c704f8189d204a98fb2e67a8024c8912409b17")
#guard runCipher "magma" (hex "ffeeddccbbaa99887766554433221100f0f1f2f3f4f5f6f7f8f9fafbfcfdfeff") modeCfb none none .enc (hex "92def06b3c130a59db54c704f8189d204a98fb2e67a8024c8912409b17b57e41") == .ok (hex "db37e0e266903c830d46644c1f9a089c24bdd2035315d38bbcc0321421075505")
#guard runCipher "magma" (hex "ffeeddccbbaa99887766554433221100f0f1f2f3f4f5f6f7f8f9fafbfcfdfeff") modeCfb none none .dec (hex "db37e0e266903c830d46644c1f9a089c24bdd2035315d38bbcc0321421075505") == .ok (hex "92def06b3c130a59db54c704f8189d204a98fb2e67a8024c8912409b17b57e41")
#guard runCipher "magma" (hex "ffeeddccbbaa99887766554433221100f0f1f2f3f4f5f6f7f8f9fafbfcfdfeff") modeCfb none none .enc (hex "92def06b3c130a59db54c704f8189d204a98fb2e67a8024c8912409b17") == .ok (hex "db37e0e266903c830d46644c1f9a089c24bdd2035315d38bbcc0321421")
#guard runCipher "magma" (hex "ffeeddccbbaa99887766554433221100f0f1f2f3f4f5f6f7f8f9fafbfcfdfeff") modeCfb none none .dec (hex "db37e0e266903c830d46644c1f9a089c24bdd2035315d38bbcc0321421") == .ok (hex "92def06b3c130a59db54c704f8189d204a98fb2e67a8024c8912409b17")
#guard runCipher "magma" (hex "ffeeddccbbaa99887766554433221100f0f1f2f3f4f5f6f7f8f9fafbfcfdfeff") modeOfb none (some (.bytearray (hex "1234567890abcdef234567890abcdef1"))) .enc (hex "92def06b3c130a59db54c704f8189d204a98fb2e67a8024c8912409b17b57e41") == .ok (hex "db37e0e266903c830d46644c1f9a089ca0f83062430e327ec824efb8bd4fdb05")
#guard runCipher "magma" (hex "ffeeddccbbaa99887766554433221100f0f1f2f3f4f5f6f7f8f9fafbfcfdfeff") modeOfb none (some (.bytearray (hex "1234567890abcdef234567890abcdef1"))) .dec (hex "db37e0e266903c830d46644c1f9a089ca0f83062430e327ec824efb8bd4fdb05") == .ok (hex "92def06b3c130a59db54c704f8189d204a98fb2e67a8024c8912409b17b57e41")
#guard runCipher "magma" (hex "ffeeddccbbaa99887766554433221100f0f1f2f3f4f5f6f7f8f9fafbfcfdfeff") modeOfb none (some (.bytearray (hex "1234567890abcdef234567890abcdef1"))) .enc (hex "92def06b3c130a59db54c704f8189d204a98fb2e67a8024c8912409b17") == .ok (hex "db37e0e266903c830d46644c1f9a089ca0f83062430e327ec824efb8bd")
#guard runCipher "magma" (hex "ffeeddccbbaa99887766554433221100f0f1f2f3f4f5f6f7f8f9fafbfcfdfeff") modeOfb none (some (.bytearray (hex "1234567890abcdef234567890abcdef1"))) .dec (hex "db37e0e266903c830d46644c1f9a089ca0f83062430e327ec824efb8bd") == .ok (hex "92def06b3c130a59db54c704f8189d204a98fb2e67a8024c8912409b17")
#guard runCipher "magma" (hex "ffeeddccbbaa99887766554433221100f0f1f2f3f4f5f6f7f8f9fafbfcfdfeff") modeOfb none none .enc (hex "92def06b3c130a59db54c704f8189d204a98fb2e67a8024c8912409b17b57e41") == .ok (hex "db37e0e266903c830d46644c1f9a089ca0f83062430e327ec824efb8bd4fdb05")
#guard runCipher "magma" (hex "ffeeddccbbaa99887766554433221100f0f1f2f3f4f5f6f7f8f9fafbfcfdfeff") modeOfb none none .dec (hex "db37e0e266903c830d46644c1f9a089ca0f83062430e327ec824efb8bd4fdb05") == .ok (hex "92def06b3c130a59db54c704f8189d204a98fb2e67a8024c8912409b17b57e41")
#guard runCipher "magma" (hex "ffeeddccbbaa99887766554433221100f0f1f2f3f4f5f6f7f8f9fafbfcfdfeff") modeOfb none none .enc (hex "92def06b3c130a59db54c704f8189d204a98fb2e67a8024c8912409b17") == .ok (hex "db37e0e266903c830d46644c1f9a089ca0f83062430e327ec824efb8bd")
#guard runCipher "magma" (hex "ffeeddccbbaa99887766554433221100f0f1f2f3f4f5f6f7f8f9fafbfcfdfeff") modeOfb none none .dec (hex "db37e0e266903c830d46644c1f9a089ca0f83062430e327ec824efb8bd") == .ok (hex "92def06b3c130a59db54c704f8189d204a98fb2e67a8024c8912409b17")
#guard runCipher "magma" (hex "ffeeddccbbaa99887766554433221100f0f1f2f3f4f5f6f7f8f9fafbfcfdfeff") modeCtr none (some (.bytearray (hex "12345678"))) .enc (hex "92def06b3c130a59db54c704f8189d204a98fb2e67a8024c8912409b17b57e41") == .ok (hex "4e98110c97b7b93c3e250d93d6e85d69136d868807b2dbef568eb680ab52a12d")
#guard runCipher "magma" (hex "ffeeddccbbaa99887766554433221100f0f1f2f3f4f5f6f7f8f9fafbfcfdfeff") modeCtr none (some (.bytearray (hex "12345678"))) .dec (hex "4e98110c97b7b93c3e250d93d6e85d69136d868807b2dbef568eb680ab52a12d") == .ok (hex "92def06b3c130a59db54c704f8189d204a98fb2e67a8024c8912409b17b57e41")
#guard runCipher "magma" (hex "ffeeddccbbaa99887766554433221100f0f1f2f3f4f5f6f7f8f9fafbfcfdfeff") modeCtr none (some (.bytearray (hex "12345678"))) .enc (hex "92def06b3c130a59db54c704f8189d204a98fb2e67a8024c8912409b17") == .ok (hex "4e98110c97b7b93c3e250d93d6e85d69136d868807b2dbef568eb680ab")
#guard runCipher "magma" (hex "ffeeddccbbaa99887766554433221100f0f1f2f3f4f5f6f7f8f9fafbfcfdfeff") modeCtr none (some (.bytearray (hex "12345678"))) .dec (hex "4e98110c97b7b93c3e250d93d6e85d69136d868807b2dbef568eb680ab") == .ok (hex "92def06b3c130a59db54c704f8189d204a98fb2e67a8024c8912409b17")
#guard runCipher "magma" (hex "ffeeddccbbaa99887766554433221100f0f1f2f3f4f5f6f7f8f9fafbfcfdfeff") modeCtr none none .enc (hex "92def06b3c130a59db54c704f8189d204a98fb2e67a8024c8912409b17b57e41") == .ok (hex "4e98110c97b7b93c3e250d93d6e85d69136d868807b2dbef568eb680ab52a12d")
#guard runCipher "magma" (hex "ffeeddccbbaa99887766554433221100f0f1f2f3f4f5f6f7f8f9fafbfcfdfeff") modeCtr none none .dec (hex "4e98110c97b7b93c3e250d93d6e85d69136d868807b2dbef568eb680ab52a12d") == .ok (hex "92def06b3c130a59db54c704f8189d204a98fb2e67a8024c8912409b17b57e41")
#guard runCipher "magma" (hex "ffeeddccbbaa99887766554433221100f0f1f2f3f4f5f6f7f8f9fafbfcfdfeff") modeCtr none none .enc (hex "92def06b3c130a59db54c704f8189d204a98fb2e67a8024c8912409b17") == .ok (hex "4e98110c97b7b93c3e250d93d6e85d69136d868807b2dbef568eb680ab")
#guard runCipher "magma" (hex "ffeeddccbbaa99887766554433221100f0f1f2f3f4f5f6f7f8f9fafbfcfdfeff") modeCtr none none .dec (hex "4e98110c97b7b93c3e250d93d6e85d69136d868807b2dbef568eb680ab") == .ok (hex "92def06b3c130a59db54c704f8189d204a98fb2e67a8024c8912409b17")
#guard runMac "magma" (hex "ffeeddccbbaa99887766554433221100f0f1f2f3f4f5f6f7f8f9fafbfcfdfeff") [hex "92def06b3c130a59db54c704f8189d204a98fb2e67a8024c8912409b17b57e41"] == .ok (hex "154e72102030c5bb")

end Gost.Tests
