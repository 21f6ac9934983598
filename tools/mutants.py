# (id, file under Verif/Model, old text, new text, claim broken, English reason)
M = [
# ---- Keys
("k1","Keys","⟨c.baseMaterial C [0x02], c.index + 1⟩","⟨c.baseMaterial C [0x02], c.index + 2⟩","C08","the counter skips positions: sent counters are no longer 0,1,2,..."),
("k2","Keys","⟨c.baseMaterial C [0x02], c.index + 1⟩","⟨c.key, c.index + 1⟩","C49","the chain key is not ratcheted: old message keys stay derivable"),
("k3","Keys","    ++ (C.dh p.theirSignedPreKey p.ourIdentity.priv).bytes\n    ++ (C.dh p.theirIdentity p.ourBasePriv).bytes\n","    ++ (C.dh p.theirIdentity p.ourBasePriv).bytes\n    ++ (C.dh p.theirSignedPreKey p.ourIdentity.priv).bytes\n","C01","sender mixes the first two agreements in the wrong order"),
("k4","Keys","    | some k => master ++ (C.dh p.theirBase k).bytes","    | some _ => master","C01","receiver ignores its one-time prekey"),
("k5","Keys","    | some k => master ++ (C.dh k p.ourBasePriv).bytes","    | some k => master ++ (C.dh k p.ourIdentity.priv).bytes","C01","sender uses the identity key instead of the base key with the one-time prekey"),
("k6","Keys","decide (be32 (serPub our) < be32 (serPub their))","decide (be32 (serPub our) ≤ be32 (serPub their))","C02","equal prefixes now make both sides senders"),
("k7","Keys","⟨b.take 32, (b.drop 32).take 32, (b.drop 64).take 16, c.index⟩","⟨b.take 32, (b.drop 32).take 32, (b.drop 64).take 16, c.index + 1⟩","C03","message keys carry the wrong index, so skipped keys are never found"),
("k8","Keys","(deriveSecrets C (C.dh their priv).bytes (some root) (ascii \"WhisperRatchet\") 64)","(deriveSecrets C (C.dh their priv).bytes none (ascii \"WhisperRatchet\") 64)","C54","the old root key is not mixed into the new one"),
("k9","Keys","⟨c.baseMaterial C [0x02], c.index + 1⟩","⟨c.baseMaterial C [0x01], c.index + 1⟩","C54","the next chain key equals the seed of the message key"),
# ---- State
("s1","State","def maxReceiverChains : Nat := 5","def maxReceiverChains : Nat := 6","C06","six receiver chains kept"),
("s2","State","def maxMessageKeys : Nat := 2000","def maxMessageKeys : Nat := 2001","C06","2001 skipped keys kept"),
("s3","State","if maxReceiverChains < cs.length then cs.drop 1 else cs }","if maxReceiverChains < cs.length then cs.dropLast else cs }","C03","the newest chain is dropped instead of the oldest"),
("s4","State","if maxMessageKeys < ks.length then ks.drop 1 else ks }","ks }","C06","skipped keys grow without bound"),
("s5","State","(.ok k, s.modifyChain eph (fun c => { c with msgKeys := c.msgKeys.eraseIdx i }))","(.ok k, s)","C05","a used skipped key is not removed: replay"),
("s6","State",".ok (c.msgKeys.any (fun k => k.index == counter))",".ok (c.msgKeys.any (fun k => k.index != counter))","C04","wrong membership test"),
("s7","State","          previousCounter := s.previousCounter,\n","          previousCounter := 0,\n","C21","previousCounter is lost on storing"),
("s8","State","    { localIdentity := some li, localRegistrationId := st.localRegistrationId,","    { localIdentity := some ri, localRegistrationId := st.localRegistrationId,","C21","local identity replaced by the remote one on loading"),
("s9","State","ratchetPriv := c.pair.priv.map Arr.bytes,","ratchetPriv := none,","C21","the ratchet private key is lost on storing"),
("s10","State","let i := (c.msgKeys.findIdx? (fun k => k.index == counter)).getD 0","let i := 0","C03","the oldest skipped key is used instead of the matching one"),
("s11","State","  | some _ => .ok (s.modifyChain eph (fun c => { c with chainKey := ck }))","  | some _ => .ok s","C05","the receiving chain is not advanced: replay"),
("s12","State","if b.length = 32 then some (sliceToArray 32 b) else none","none","C21","private ratchet key dropped on loading"),
("s13","State","          remoteIdentity := serPub ri, remoteRegistrationId := s.remoteRegistrationId,","          remoteIdentity := serPub li, remoteRegistrationId := s.remoteRegistrationId,","C50","stored remote identity is the local one"),
("s14","State","  | some _ => .ok (s.modifyChain eph (·.addMsgKeys k))","  | some _ => .ok s","C03","skipped keys are not stored"),
# ---- Record
("r1","Record","def archivedStatesMaxLength : Nat := 40","def archivedStatesMaxLength : Nat := 41","C06","41 archived states"),
("r2","Record","if archivedStatesMaxLength < prev.length then prev.dropLast else prev","prev","C06","archive grows without bound"),
("r3","Record","  m r.state || r.prevStates.any m","  m r.state","C15","a prekey message of an archived session creates a second session"),
("r4","Record","  let prev := r.cur :: r.prev\n","  let prev := r.prev\n","C52","the current state is lost instead of archived"),
("r5","Record","s.version == version && baseKey","baseKey","C15","version ignored in the lookup (stricter than the code)"),
("r6","Record","(seqRes (r.prevStates.map SState.toStruct))","(seqRes (r.prevStates.reverse.map SState.toStruct))","C21","archive order reversed on storing"),
# ---- Session
("e1","Session","    if ck.index < counter then\n      match s.setMessageKeys","    if ck.index < counter + 1 then\n      match s.setMessageKeys","C04","one key too many is skipped (fuel still bounds it)"),
("e2","Session","  if counter < ck.index then\n    match s.hasMessageKeys","  if counter ≤ ck.index then\n    match s.hasMessageKeys","C03","the next expected message is treated as old"),
("e3","Session","def maxFutureMessages : UInt32 := 5000","def maxFutureMessages : UInt32 := 2000","C07","limit 2000 instead of 5000"),
("e4","Session","  else if maxFutureMessages < counter - ck.index then","  else if maxFutureMessages ≤ counter - ck.index then","C07","boundary off by one"),
("e5","Session","      match s'.setReceiverChainKey eph (ck'.next C) with","      match s'.setReceiverChainKey eph ck' with","C05","chain left at the used position: replay"),
("e6","Session","            let s1 := { s with rootKey := some send.root }","            let s1 := { s with rootKey := some recv.root }","C03","root key of the half-step stored: ratchets diverge"),
("e7","Session","            (.ok recv.chain, s3.setSenderChain ourNew send.chain, true)","            (.ok recv.chain, s3, true)","C03","sending chain not renewed after a ratchet step"),
("e8","Session","          match m.verifyMac E.C E.S m.struct.version s2.remoteIdentity s2.localIdentity mk.macKey with","          match m.verifyMac E.C E.S m.struct.version s2.localIdentity s2.remoteIdentity mk.macKey with","C03","identities swapped in MAC verification"),
("e9","Session","    if m.struct.version ≠ s.version then (.err .wrongVersion, s, false)\n    else\n","    if m.struct.version < 0 then (.err .wrongVersion, s, false)\n    else\n","C10","message version not compared with the session version"),
("e10","Session","          | .err e => (.err e, s2, d)\n          | .panic => (.panic, s2, d)\n          | .ok () =>\n            match decryptBody","          | .panic => (.panic, s2, d)\n          | _ =>\n            match decryptBody","C10","MAC failure ignored"),
("e11","Session","(.ok (pt, mk), { s2 with pendingPreKey := none }, d)","(.ok (pt, mk), s2, d)","C17","prekey wrapping never stops"),
("e12","Session","      (.ok x, r2.promote a, bump pos d)","      (.ok x, r1, bump pos d)","C18","archived state not promoted"),
("e13","Session","r1.prev.eraseIdx i ++ r1.prev.drop (r1.prev.length - 1)","r1.prev.eraseIdx i","C18","the intended behaviour: no duplicate left (negative theorem must fail)"),
("e14","Session","        let s' := { s with senderChain := some { sc with chainKey := sc.chainKey.next E.C } }","        let s' := s","C08","sending chain not advanced: key reuse"),
("e15","Session","E.C E.S s.version sc.chainKey.index s.previousCounter mk.macKey","E.C E.S s.version s.previousCounter sc.chainKey.index mk.macKey","C08","counter and previous counter swapped"),
("e16","Session","        | none => (.ok (.signal sm), s')\n        | some pp =>","        | none => (.ok (.signal sm), { s' with pendingPreKey := none })\n        | some pp =>","-","harmless edit (control: nothing should need to fail)"),
("e17","Session","(.ok m, r', [.saveIdentity a s'.remoteIdentity, .storeSession a r'])","(.ok m, r', [.saveIdentity a s'.remoteIdentity])","C08","Encrypt does not store the session"),
("e18","Session","  | (.err e, r', pos') => (.err e, r', pos', [])\n  | (.panic, r', pos') => (.panic, r', pos', [])\n\n/-! ### Session building","  | (.err e, r', pos') => (.err e, r', pos', [.storeSession a r'])\n  | (.panic, r', pos') => (.panic, r', pos', [])\n\n/-! ### Session building","C09","a failed Decrypt stores the session"),
("e19","Session","  if r.hasSessionState m.struct.version (serPub m.baseKey) then (.ok (some OptU32.empty), r)\n  else\n    match signedPreKeys","  if false then (.ok (some OptU32.empty), r)\n  else\n    match signedPreKeys","C15","repeated prekey message creates another session"),
("e20","Session","        let r1 := if r.fresh then r else r.archiveCurrentState\n        match calculateReceiverSession","        let r1 := r\n        match calculateReceiverSession","C52","incoming session overwrites the old one"),
("e21","Session","          | some kp => .ok (some kp.priv)","          | some _ => .ok none","C03","one-time prekey not used by the receiver"),
("e22","Session","  if E.trusted ids a m.identityKey = false then (.err .untrustedIdentity, r, [])\n","  if false then (.err .untrustedIdentity, r, [])\n","C11","Process does not check trust"),
("e23","Session","    | (.err e, r') => (.err e, r', [])\n    | (.panic, r') => (.panic, r', [])\n    | (.ok id, r') =>","    | (.err e, r') => (.err e, r', [.saveIdentity a (some m.identityKey)])\n    | (.panic, r') => (.panic, r', [])\n    | (.ok id, r') =>","C11","identity saved although Process failed"),
("e24","Session","        else (.ok x, r2, pos', eff ++ [.removePreKey o.value])","        else (.ok x, r2, pos', eff)","C14","used one-time prekey not removed"),
("e25","Session","    | (.err e, r2, pos') => (.err e, r2, pos', eff)","    | (.err e, r2, pos') => (.err e, r2, pos', eff ++ [.removePreKey 0])","C14","prekey removed although decryption failed"),
("e26","Session","      if E.C.verify b.identityKey (serPub spk) b.signature = false then .err .invalidSignature\n      else .ok spk","      .ok spk","C13","signature of the signed prekey not checked"),
("e27","Session","  if E.trusted ids a b.identityKey = false then .err .untrustedIdentity\n  else\n    match b.signedPreKeyPublic","  if false then .err .untrustedIdentity\n  else\n    match b.signedPreKeyPublic","C11","ProcessBundle does not check trust"),
("e28","Session","pendingPreKey := some ⟨b.preKeyId, b.signedPreKeyId, base.pub⟩","pendingPreKey := some ⟨b.preKeyId, b.signedPreKeyId, ratchet.pub⟩","C03","wrong base key announced"),
("e29","Session","  let s := s.addReceiverChain spk derived.chain\n","","C03","no receiving chain for the peer's signed prekey"),
("e30","Session","let s := s.setSenderChain ⟨spk.pub, some spk.priv⟩ keys.chain","let s := s.setSenderChain ⟨spk.pub, none⟩ keys.chain","C03","signed prekey private half missing in the responder's chain"),
("e31","Session","previousCounter := maxU32 (sc.chainKey.index - 1) 0 }","previousCounter := sc.chainKey.index }","C20","the repaired previous counter (negative theorem must fail)"),
("e32","Session","(.ok (), r2, pos + 2, [.storeSession a r2, .saveIdentity a (some b.identityKey)])","(.ok (), r2, pos + 2, [.storeSession a r2])","C12","identity not recorded after ProcessBundle"),
("e33","Session","    | (.err _, s', d) => tryPrevious E m rest (i + 1) (r.set a s') (bump pos d)","    | (.err _, _, d) => tryPrevious E m rest (i + 1) r (bump pos d)","C19","the intended behaviour: failed attempts leave archived states alone (negative theorem must fail)"),
("e34","Session","      let eff := eff ++ [.storeSession a r2]\n","","C14","session not stored after a prekey message"),
("e35","Session","          match newPreKeyMessage E.S s.version s.localRegistrationId pp.preKeyId pp.signedPreKeyId pp.baseKey\n                  s.localIdentity sm with","          match newPreKeyMessage E.S s.version s.remoteRegistrationId pp.preKeyId pp.signedPreKeyId pp.baseKey\n                  s.localIdentity sm with","C17","prekey message carries the peer's registration id instead of ours"),
("e36","Session","if id.value = mediumMaxValue then none else some id","some id","C14","ids equal to MaxValue treated like others"),
("e37","Session","remoteRegistrationId := m.struct.registrationId,\n                            senderBaseKey","remoteRegistrationId := E.registrationId,\n                            senderBaseKey","C55","responder records its own registration id as the peer's"),
("e38","Session","           remoteRegistrationId := b.registrationId,","           remoteRegistrationId := E.registrationId,","C55","initiator records its own registration id as the peer's"),
# ---- Store
("t1","Store","  match st.sessions a with\n  | none => (.err .noSession, pos, [])\n  | some _ =>\n    match st.load a with","  match st.sessions a with\n  | none => (.ok ([], ⟨[], [], [], 0⟩), pos, [])\n  | some _ =>\n    match st.load a with","C50","Decrypt without a session succeeds"),
("t2","Store","  fun x => if x = a then b else f x","  fun _ => b","C42","a write reaches every address"),
("t3","Store","  | (st', false) => (.panic, st')","  | (_, false) => (.panic, st)","-","control: crash rolls back (stores are not transactional)"),
# ---- Protocol
("p1","Protocol","  if v ≤ (unsupportedVersion : Int) then .err .legacyVersion","  if v < (unsupportedVersion : Int) then .err .legacyVersion","C24","version 1 accepted"),
("p2","Protocol","  else if (currentVersion : Int) < v then .err .unknownVersion","  else if (currentVersion : Int) + 1 < v then .err .unknownVersion","C24","version 4 accepted"),
("p3","Protocol","(serPub s ++ serPub r ++ serialized)","(serPub s ++ serialized)","C10","receiver identity not covered by the MAC"),
("p4","Protocol","(getMac C version sender receiver macKey (itoa version ++ body))","(getMac C version sender receiver macKey body)","C03","version not covered when creating, but covered when verifying"),
("p5","Protocol","        if ours = m.struct.mac.getD [] then .ok () else .err .badMac","        if ours.take 4 = (m.struct.mac.getD []).take 4 then .ok () else .err .badMac","C10","only four MAC bytes compared"),
("p6","Protocol","def macLength : Nat := 8","def macLength : Nat := 4","C10","MAC shortened to four bytes"),
("p7","Protocol","(S.ser { m'.struct with mac := none, version := 0 })","(S.ser { m'.struct with mac := none, version := 0, previousCounter := 0 })","C10","previous counter not covered by MAC verification"),
("p8","Protocol","          signedPreKeyId := signedPreKeyId, baseKey := some (serPub baseKey),","          signedPreKeyId := registrationId, baseKey := some (serPub baseKey),","C25","signed prekey id replaced"),
("p9","Protocol","  S.ser { id := m.keyId, iteration := m.iteration, cipherText := m.ciphertext, version := m.version, signature := none }","  S.ser { id := m.keyId, iteration := 0, cipherText := m.ciphertext, version := m.version, signature := none }","C31","the signature does not cover the iteration"),
("p10","Protocol","  S.ser { id := m.id, iteration := m.iteration, chainKey := m.chainKey,","  S.ser { id := m.iteration, iteration := m.id, chainKey := m.chainKey,","C26","id and iteration swapped in the distribution message"),
("p11","Protocol","    | some _, some rk => (decodePoint rk).map fun k => ⟨st, k⟩","    | _, some rk => (decodePoint rk).map fun k => ⟨st, k⟩","C24","missing ciphertext accepted"),
# ---- Proto
("w1","Proto","putU32 2 st.counter ++ putU32 3 st.previousCounter","putU32 3 st.counter ++ putU32 2 st.previousCounter","C24","counter fields swapped on the wire"),
("w2","Proto","((b.length : Int) - 1 - macLength) macLength)","((b.length : Int) - macLength) macLength)","C24","MAC split at the wrong place"),
("w3","Proto","preKeyId := some (OptU32.new (getU32 1 fs)) }","preKeyId := some (OptU32.new (getU32 5 fs)) }","C25","registration id read as prekey id"),
("w4","Proto","def highBits (b : UInt8) : Nat := b.toNat / 16","def highBits (b : UInt8) : Nat := b.toNat % 16","C25","low nibble instead of high nibble (the intended ASCII digit)"),
("w5","Proto","  (fs.reverse.find? (fun p => p.1 == tag)).map (·.2)","  (fs.find? (fun p => p.1 == tag)).map (·.2)","C57","first instead of last occurrence wins"),
("w6","Proto","some (some (tag, .varint (v % 2 ^ 32)), r')","some (some (tag, .varint v), r')","-","control: value is truncated later anyway"),
("w7","Proto","  (splitThree (some b) 1 ((b.length : Int) - 1 - 64) 64)","  (splitThree (some b) 1 ((b.length : Int) - 1 - 63) 63)","C26","63 signature bytes"),
# ---- Basic
("b1","Basic",".ok (input.take first, copyInto second (input.drop first))",".ok (input.take first, copyInto second (input.drop second))","C48","second part taken at the wrong offset"),
("b2","Basic","(b.length : Int) < first + second + third then","(b.length : Int) ≤ first + second + third then","C48","exact-length input refused"),
("b3","Basic","if input.length < length then .panic else .ok (input.take length)","if input.length < length then .panic else .ok (input.drop length)","C48","Trim keeps the tail"),
# ---- Cbc
("c1","Cbc","  let padding := blockSize - b.length % blockSize\n  b ++","  let padding := (blockSize - b.length % blockSize) % blockSize\n  b ++","C28","no padding block for full blocks"),
("c2","Cbc","    if src.length < padLen then .err .badPadding","    if src.length ≤ padLen then .err .badPadding","C28","empty plaintext refused"),
("c3","Cbc","    let c := C.aesEnc key (xorBlock iv p)\n    c :: cbcEncBlocks C key c ps","    let c := C.aesEnc key (xorBlock iv p)\n    c :: cbcEncBlocks C key iv ps","C28","ECB-like chaining with the same IV"),
("c4","Cbc","(cbcCrypt (cbcEncBlocks C key) v.bytes padded).map (v.bytes ++ ·)","(cbcCrypt (cbcEncBlocks C key) v.bytes padded)","C28","random IV not prepended"),
("c5","Cbc","      if n = 0 ∨ b.length < n then .err .badPadding\n      else if","      if b.length < n then .err .badPadding\n      else if","C28","zero padding byte accepted by pkcs7Unpad"),
("c6","Cbc","else if (b.drop (b.length - n)).all (· == c) then","else if true then","C28","padding bytes not checked by pkcs7Unpad"),
# ---- Groups
("g1","Groups","(.ok m, some ({ s with chain := s.chain.next C } :: rest), true)","(.ok m, some (s :: rest), true)","C32","iteration reused"),
("g2","Groups","(.ok m, some ({ s with chain := s.chain.next C } :: rest), true)","(.ok m, some ({ s with chain := s.chain.next C } :: rest), false)","C32","group Encrypt does not store"),
("g3","Groups","  else if 2000 < iteration - s.chain.iteration then","  else if 2000 ≤ iteration - s.chain.iteration then","C29","boundary off by one"),
("g4","Groups","  | some i => (s.keys[i]?, { s with keys := s.keys.eraseIdx i })","  | some i => (s.keys[i]?, s)","C30","group replay"),
("g5","Groups","        if C.verify s.signing.pub body m.sig = false then (.err .signatureFailed, r, false)\n        else\n","        if false then (.err .signatureFailed, r, false)\n        else\n","C31","signature not checked"),
("g6","Groups","    | (.ok ck, s') => ((ck.msgKey C).map some, { s' with chain := ck.next C })","    | (.ok ck, s') => ((ck.msgKey C).map some, { s' with chain := ck })","C30","group chain not advanced: replay"),
("g7","Groups","              | .err e => (.err e, r', false)\n              | .panic => (.panic, r', false)\n              | .ok pt => (.ok pt, r', true)","              | .err e => (.err e, r', true)\n              | .panic => (.panic, r', false)\n              | .ok pt => (.ok pt, r', true)","C56","failed group decrypt is stored"),
("g8","Groups","if groupMaxMessageKeys < ks.length then ks.drop 1 else ks }","ks }","C30","unbounded skipped keys"),
("g9","Groups","  let r' := r ++ [⟨[], id, ⟨iteration, chainKey⟩, ⟨pub, none⟩⟩]","  let r' := ⟨[], id, ⟨iteration, chainKey⟩, ⟨pub, none⟩⟩ :: r","C33","new state goes first (negative theorem must fail)"),
("g10","Groups","  | some (s :: _) => (.ok (newSKDM s.keyId s.chain.iteration s.chain.key s.signing.pub), none)","  | some (s :: _) => (.ok (newSKDM s.keyId 0 s.chain.key s.signing.pub), none)","C29","distribution message announces iteration 0 with the current chain key"),
("g11","Groups","⟨iv, key⟩" if False else "(split d 16 32).map fun (iv, key) => ⟨iteration, iv, key, seed⟩","(split d 16 32).map fun (iv, key) => ⟨iteration + 1, iv, key, seed⟩","C29","message key carries the wrong iteration"),
("g12","Groups","          newSenderKeyMessage C S s.keyId mk.iteration ct s.signing.priv rand with","          newSenderKeyMessage C S s.keyId (mk.iteration + 1) ct s.signing.priv rand with","C29","message announces the wrong iteration"),
("g13","Groups","⟨fun x => if x = n then some r.toStruct else st.recs x⟩","⟨fun _ => some r.toStruct⟩","C42","group record written under every name"),
# ---- PreKeys
("q1","PreKeys","(count + 1 - start).toNat start pos []","(count - start).toNat start pos []","C37","one prekey fewer"),
("q2","PreKeys","fuel (i + 1) (pos + 1) (acc ++","fuel (i + 1) pos (acc ++","C37","the same key pair for every id"),
("q3","PreKeys","⟨⟨id, serPub kp.pub, kp.priv.bytes⟩, kp⟩","⟨⟨id, kp.pub.bytes, kp.priv.bytes⟩, kp⟩","C22","the repaired representation (negative theorem must fail)"),
("q4","PreKeys","(C.sign idPriv (serPub kp.pub) rand)","(C.sign idPriv kp.pub.bytes rand)","C36","signed prekey signature over the wrong bytes"),
("q5","PreKeys","  | some r => let p := clamp r; .ok ⟨C.basePub p, p⟩","  | some r => let p := clamp r; .ok ⟨C.basePub r, p⟩","C36","public key of the unclamped private key"),
# ---- Misc
("m1","Misc","    if bytesLt l r then l ++ r else r ++ l","    l ++ r","C34","display not sorted"),
("m2","Misc","fun v => sprintf05d (v % 100000)","fun v => sprintf05d (v % 1000000)","C34","six-digit chunks"),
("m3","Misc","a.name.toUTF8.data.toList ++ [58] ++ natDec a.deviceId.toNat","a.name.toUTF8.data.toList ++ natDec a.deviceId.toNat","C35","no separator"),
("m4","Misc","          if (C.hmac macKey ivAndCiphertext).bytes = mac then decryptCbc C (some iv) aesKey cipherText\n          else .err .badMac","          decryptCbc C (some iv) aesKey cipherText","C38","MAC not checked"),
("m5","Misc","let ivAndCiphertext := body.take (body.length - 32)","let ivAndCiphertext := (body.take (body.length - 32)).drop 17","C38","MAC does not cover version and IV"),
("m6","Misc","[hexDigit (x.toNat / 16), hexDigit (x.toNat % 16)]","[hexDigit (x.toNat / 16)]","C34","fingerprint drops nibbles"),
# ---- Crypto
# ---- Buffers / Concurrent / World
("u1","Buffers","def copySliceM (m : Mem) (s : Slice) : Mem × Slice := (m.alloc (m.read s), ⟨m.fresh, 0, s.len, s.len⟩)","def copySliceM (m : Mem) (s : Slice) : Mem × Slice := (m, s)","C47","decrypt works on the message's own buffer"),
("u2","Concurrent","  if mutex && (x.lock.isSome && x.lock != some i) then x else\n","  if mutex && (x.lock.isNone && x.lock != some i) then x else\n","C41","lock test inverted"),
("u3","World","| .preKey m => (E.P.ser m.struct).map .preKey","| .preKey m => (E.S.ser m.message.struct).map .signal","C03","prekey wrapper stripped on the wire"),
# ---- batch 3: arithmetic and signatures
("f1","LimbGen","  (25, (.add .w32 (.v 5) (.v 15))), -- 33: dst[5] = a[5] + b[5]","  (25, (.add .w32 (.v 5) (.v 16))), -- 33: dst[5] = a[5] + b[5]","C43","FeAdd uses the wrong limb"),
("f2","LimbGen","(.add .w64 (.v 40) (.k 33554432)) 26)), -- 268","(.add .w64 (.v 40) (.k 33554432)) 25)), -- 268","C43","FeCombine carries by the wrong amount"),
("f3","Field","  let t3 := sqN 99 t3\n  let t2 := feMul t3 t2\n  let t2 := feSquare t2\n  let t2 := sqN 49 t2\n  let t1 := feMul t2 t1\n  let t1 := feSquare t1\n  let t1 := sqN 4 t1\n  feMul t1 t0","  let t3 := sqN 98 t3\n  let t2 := feMul t3 t2\n  let t2 := feSquare t2\n  let t2 := sqN 49 t2\n  let t1 := feMul t2 t1\n  let t1 := feSquare t1\n  let t1 := sqN 4 t1\n  feMul t1 t0","C43","FeInvert squares once too few"),
("f4","Field","(feToBytes f).1.headD 0 % 2","(feToBytes f).1.headD 0 / 128","C43","FeIsNegative reads the wrong bit"),
("f5","Field","BitVec.ofInt 32 (-b) &&& (f ^^^ BitVec.ofInt 32 g)","BitVec.ofInt 32 b &&& (f ^^^ BitVec.ofInt 32 g)","C43","FeCMove mask not negated"),
("f6","TableGen","[25967493, -14356035,","[25967494, -14356035,","C45","a digit wrong in the precomputed table"),
("f7","Group","  let rZ := feAdd t0 rT\n  let rT := feSub t0 rT\n  ⟨rX, rY, rZ, rT⟩","  let rZ := feSub t0 rT\n  let rT := feAdd t0 rT\n  ⟨rX, rY, rZ, rT⟩","C45","geMixedAdd computes the difference denominators"),
("f8","Group","wrap8 (e + 8) / 16","wrap8 (e + 7) / 16","C45","recoding boundary: digit 8 is not carried"),
("f9","Group","let minusT : PrePoint := ⟨t.yMinusX, t.yPlusX, feNeg t.xy2d⟩","let minusT : PrePoint := ⟨t.yMinusX, t.yPlusX, t.xy2d⟩","C45","negated table entry keeps its xy2d"),
("f10","Group","  let s := s.double.toProjective\n  let s := s.double.toProjective\n  let h := s.double.toExtended","  let s := s.double.toProjective\n  let h := s.double.toExtended","C45","multiplies the odd digits by 8 instead of 16"),
("f11","Group","flipTop (feToBytes y).1 (feIsNegative x)","flipTop (feToBytes y).1 0","C45","ToBytes forgets the sign"),
("f12","Sign","(· ||| (publicKey.bytes.getD 31 0 &&& 0x80))","(· ||| 0)","C45","sign does not transport the sign bit"),
("f13","Sign","G.sha512 (encodedR.bytes ++ publicKey.bytes ++ msg)","G.sha512 (publicKey.bytes ++ encodedR.bytes ++ msg)","C45","challenge hash in the wrong order"),
("f14","Sign","(ints hramDigestReduced.bytes) (ints priv.bytes) (ints rReduced.bytes)","(ints hramDigestReduced.bytes) (ints rReduced.bytes) (ints priv.bytes)","C45","nonce and key swapped in ScMulAdd"),
("f15","Sign","  let montXMinusOne := feSub montX feOne","  let montXMinusOne := feSub feOne montX","C45","birational map negated"),
("f16","Sign","signature.bytes.modify 63 (· &&& 0x7F), by","signature.bytes.modify 63 (· &&& 0xFF), by","C45","sign bit left in S"),
("f17","Sign","let publicKey := pub.bytes.modify 31 (· &&& 0x7F)","let publicKey := pub.bytes","-","control: FeFromBytes ignores the top bit anyway"),
("f18","Sign","(diversifier ++ priv.bytes ++ msg ++ random.bytes)","(diversifier ++ priv.bytes ++ msg)","C45","the nonce does not depend on the random value"),
("f19","Sign","def diversifier : Bytes := 0xFE :: List.replicate 31 0xFF","def diversifier : Bytes := List.replicate 32 0xFF","C45","wrong hash prefix"),
("f20","Scalar","scReduceLoad ++ (scReduceFold ++ (scReduceFloor ++ (scReduceLast ++ scReducePack)))","scReduceLoad ++ (scReduceFold ++ (scReduceLast ++ scReducePack))","C44","a reduction pass is missing"),
("f21","Field","run (feToBytesQ ++ (feToBytesC ++ feToBytesS))","run (feToBytesC ++ feToBytesS)","C43","FeToBytes does not subtract q*p: non-canonical"),
# ---- batch 3: memory, concurrency, stores
("n1","Buffers","  if s.len + x.length ≤ s.cap then\n","  if s.len + x.length ≤ s.cap + 1 then\n","C47","append writes past the capacity"),
("n2","Buffers","(m.alloc (m.read s), ⟨m.fresh, 0, s.len, s.len⟩)","(m.alloc (m.read s), ⟨m.fresh, 0, s.len, s.len + 1⟩)","C47","CopySlice claims spare capacity"),
("n3","Buffers","else .ok { s with len := s.len - last.toNat }","else .ok { s with len := s.len - last.toNat + 1 }","C47","unpad leaves a padding byte"),
("n4","Buffers","    | none => (.err .noSenderKeyForId, r, false, mem)\n    | some s =>\n      match m.serialize S with\n      | .err e => (.err e, r, false, mem)","    | none => (.err .noSenderKeyForId, r, false, mem)\n    | some s =>\n      match m.serialize S with\n      | .err e => (.err e, none, false, mem)","C47","memory model of group decrypt drops the record"),
("n5","Concurrent","threads := upd x.threads i ⟨.saved cm (r.set r.cur s'), todo⟩","threads := upd x.threads i ⟨.saved cm r, todo⟩","C41","Encrypt stores the record it loaded"),
("n6","Concurrent","out := x.out ++ [(i, cm)]","out := x.out","C41","messages are lost"),
("n7","World","| .ok m => let x := n.st.decryptPreKey E n.pos peer m; (x.1.map (·.1), ⟨x.2.1, x.2.2⟩)","| .ok m => let x := n.st.decryptPreKey E n.pos peer m; (x.1.map (·.1), ⟨n.st, x.2.2⟩)","C53","the receiver forgets what it stored"),
("n8","Store","  | .removePreKey id => some { st with preKeys := upd st.preKeys id none }","  | .removePreKey _ => some st","C14","one-time prekey never removed"),
("n9","Store","    | _ => none\n  | .removePreKey","    | _ => some st\n  | .removePreKey","C21","a record that cannot be serialised is silently dropped"),
("n10","Store","  match st.sessions a with\n  | none => (.err .noSession, pos, [])","  match st.sessions a with\n  | none => (.err .uninitialized, pos, [])","C58","wrong error for an unknown session"),
("n11","Store","  | e :: es =>\n    match st.apply e with\n    | none => (st, false)\n    | some st' => st'.applyAll es","  | e :: es =>\n    match st.apply e with\n    | none => (st, false)\n    | some st' => (st', true)","C51","only the first store operation is performed"),
("n12","Misc","(encodedChunk fp 20).bind fun e => (encodedChunk fp 25).map fun f =>","(encodedChunk fp 20).bind fun e => (encodedChunk fp 20).map fun f =>","C34","last chunk repeats the previous one"),
("n13","Misc","List.replicate (5 - d.length) 48 ++ d","d","C34","chunks not zero-padded"),
("n14","Groups","      | .ok k => groupSkip C iteration fuel (s.addKey k) (ck.next C)","      | .ok k => groupSkip C iteration fuel s (ck.next C)","C29","skipped group keys are not kept"),
("n15","Groups","⟨st.keys, st.keyId, st.chain, ⟨pub, some","⟨[], st.keyId, st.chain, ⟨pub, some","C27","stored group message keys lost on reload"),
("n16","Groups","| .ok m => (.ok m, some ({ s with chain := s.chain.next C } :: rest), true)","| .ok m => (.ok m, some ({ s with chain := s.chain.next C } :: rest), false)","C32","group encrypt does not store"),
("n17","Groups","  if iteration < s.chain.iteration then\n","  if iteration ≤ s.chain.iteration then\n","C29","the current iteration is treated as old"),
("n18","PreKeys","newPreKey (UInt32.ofInt i) kp","newPreKey (UInt32.ofInt (i + 1)) kp","C37","ids shifted by one"),
("n19","PreKeys","(generateIdPair C draw).map fun kp => newPreKey 0 kp","(generateIdPair C draw).map fun kp => newPreKey 0xFFFFFF kp","C37","repaired last resort id (negative theorem must fail)"),
("n20","Crypto","(x &&& 127) ||| 64","(x &&& 127)","C36","clamping does not set bit 254"),
("n21","Crypto","(hkdfBlocks C prk info ((n + 31) / 32) [] 1)","(hkdfBlocks C prk info ((n + 31) / 32) [] 0)","C54","HKDF counter starts at 0"),
("n22","Crypto","if t = djbType then","if true then","C57","any key type accepted"),
# ---- batch 4: points, JSON, provisioning text, byte stores, acceptance
("4p1","Point","if neg ≠ s.getD 31 0 / 128 then feNeg X else X","if neg = s.getD 31 0 / 128 then feNeg X else X","C59","sign selection inverted"),
("4p2","Point","    if feIsNonZero (feAdd vxx u) = 1 then none\n    else some (finish","    if False then none\n    else some (finish","C59","second check missing: non-points accepted"),
("4p3","Point","(feToBytes (feMul X feSqrtM1)).2","(feToBytes X).2","C59","sqrt(-1) factor forgotten"),
("4p4","Point","let X := fePow22523 X","let X := X","C59","no square root"),
("4p5","Point","let u := feSub u Z\n  let v := feAdd v Z","let u := feAdd u Z\n  let v := feAdd v Z","C59","wrong curve equation"),
("4p6","Point","(⟨X, Y, Z, feMul X Y⟩ : ExtendedPoint)","(⟨X, Y, Z, feMul Y Y⟩ : ExtendedPoint)","C59","T is not X*Y"),
("4p7","Point","  let y := feMul p.Y recip\n","  let y := feMul p.X recip\n","C59","projective encoding writes x"),
("4p8","Point","⟨feAdd p.Y p.X, feSub p.Y p.X, p.Z, feMul p.T feD2⟩","⟨feAdd p.Y p.X, feSub p.X p.Y, p.Z, feMul p.T feD2⟩","C59","cached form with swapped difference"),
("4j1","Json","if n < 26 then UInt8.ofNat (65 + n)","if n ≤ 26 then UInt8.ofNat (65 + n)","C60","base64 alphabet off by one"),
("4j2","Json","  else if n = 62 then 43 else 47","  else if n = 62 then 45 else 95","C60","URL base64 written, standard base64 read"),
("4j4","Json","  | .num l => (parseNat l).bind fun n => if n < bound then some n else none","  | .num l => (parseNat l).bind fun n => if n < bound - 1 then some n else none","C60","the largest uint32 is refused"),
("4j5","Json","if n ≤ 2 ^ 63 then some (-(n : Int)) else none","if n < 2 ^ 63 then some (n : Int) else none","C60","negative numbers lose their sign"),
("4j6","Json","  | some (v, r) => if skipWs r = [] then some v else none","  | some (v, _) => some v","-","trailing garbage accepted (still refuses prefixes)"),
("4j7","Json","  | [], s => some s\n  | p :: ps, c :: s => if c = p then expect ps s else none\n  | _ :: _, [] => none","  | [], s => some s\n  | p :: ps, c :: s => if c = p then expect ps s else none\n  | _ :: _, [] => some []","C61","a cut-off literal is accepted"),
("4j8","Json","      | 93 :: s => some ([v], s)\n      | _ => none","      | 93 :: s => some ([v], s)\n      | _ => some ([v], [])","C61","a missing closing bracket is accepted"),
("4j9","Json","def jBytes : Option Bytes → JVal\n  | none => .null\n  | some b => .str (b64Enc b)","def jBytes : Option Bytes → JVal\n  | none => .str []\n  | some b => .str (b64Enc b)","C60","nil written as an empty string"),
("4j10","Json","if names.contains key then some key else","if false then some key else","-","control: only the case-insensitive match (no two names fold together)"),
("4j11","JsonTypes",'("Counter", jU32 st.counter), ("PreviousCounter", jU32 st.previousCounter)','("Counter", jU32 st.counter), ("PreviousCounter", jU32 st.counter)',"C25","JSON previous counter wrong"),
("4j12","JsonTypes",'("PreviousCounter", jU32 s.previousCounter),\n','',"C60","a field of the state is not written"),
("4j13","JsonTypes",'let senderChain ← ptrField RawChain.ofJson stateNames m "SenderChain"','let senderChain ← ptrField RawChain.ofJson stateNames m "senderchain"',"C60","field name misspelt on reading"),
("4j14","JsonTypes",'("MacKey", jBytes (some k.macKey)), ("IV", jBytes (some k.iv))','("MacKey", jBytes (some k.iv)), ("IV", jBytes (some k.macKey))',"C60","MAC key and IV swapped on writing"),
("4j15","JsonTypes",'("Keys", .arr (s.keys.map SMKey.toJson))','("Keys", .arr [])',"C60","skipped group keys lost"),
("4j16","JsonTypes","  | some a :: l => (allSome l).map (a :: ·)","  | some a :: l => (allSome l).map (· ++ [a])","C60","skipped keys reversed on loading"),
("4j17","JsonTypes","    (SState.ofRaw st.state).map fun s => Rec.ofStates s prev","    (SState.ofRaw st.state).map fun s => Rec.ofStates s prev.reverse","C60","archived states reversed on loading"),
("4j19","JsonTypes","if b.length = 32 then some (sliceToArray 32 b) else none","none","C60","ratchet private key lost on loading JSON"),
("4j20","JsonTypes",'("Signature", jBytes (some st.signature)), ("Timestamp", jInt st.timestamp.toInt)','("Signature", jBytes (some st.signature)), ("Timestamp", jInt (st.timestamp.toInt / 1000))',"C60","timestamp in seconds"),
("4v1","Provision","provisionDecrypt C ourPrivateKey (e.publicKey.getD []) (e.body.getD [])","provisionDecrypt C ourPrivateKey (e.body.getD []) (e.publicKey.getD [])","C38","envelope fields swapped"),
("4v2","Provision","  match b64Dec privateKey with\n  | none => .err .badBase64","  match b64Dec privateKey with\n  | none => .panic","C38","bad base64 panics"),
("4v3","Provision","      | none => .err .badJson","      | none => .ok []","C38","bad envelope decrypts to nothing"),
("4y1","ByteStore","    | .ok b => some { st with sessions := upd st.sessions a (some b) }","    | .ok _ => some st","C63","byte store does not store"),
("4y2","ByteStore","  | .removePreKey id => some { st with preKeys := upd st.preKeys id none }","  | .removePreKey _ => some st","C63","byte store keeps prekeys"),
("4y3","ByteStore","  (st.signedPreKeys id).bind fun b","  (st.preKeys id).bind fun b","C63","signed prekey looked up among the prekeys"),
("4y4","ByteStore","  match st.sessions a with\n  | none => .ok Rec.new","  match st.sessions a with\n  | none => .panic","C63","no session is a panic"),
("4y5","ByteWorld","| .ok m => let x := n.st.decrypt E n.pos peer m; (x.1.map (·.1), ⟨x.2.1, x.2.2⟩)","| .ok m => let x := n.st.decrypt E n.pos peer m; (x.1.map (·.1), ⟨n.st, x.2.2⟩)","C63","receiver's byte store forgets"),
("4a1","Protocol","if v ≤ (unsupportedVersion : Int)","if v < (unsupportedVersion : Int)","C62","version 1 accepted"),
("4a2","Protocol","(currentVersion : Int) < v then","(currentVersion : Int) ≤ v then","C62","version 3 refused"),
("4a3","Protocol","    | some _, some rk => (decodePoint rk).map fun k => ⟨st, k⟩","    | _, some rk => (decodePoint rk).map fun k => ⟨st, k⟩","C62","a session message without ciphertext is accepted"),
("4a4","Protocol","  (checkVersion st.version.toNat).bind fun _ =>\n    match st.cipherText","  Res.bind (.ok ()) fun _ =>\n    match st.cipherText","C62","group message version not checked"),
# batch 5
("5h1","Hostile","(.injected x.1 ((w.node s).ops (env s) (addr s.peer) p), ⟨upd w.node s x.2, w.wire⟩)","(.injected x.1 ((w.node s).ops (env s) (addr s.peer) p), w)","-","an injected packet is not remembered (stricter network: C68 about refused packets still holds)"),
("5h2","Hostile","    | .ok m => (n.st.decryptPreKeyTrace E n.pos peer m).2.2\n    | _ => []","    | .ok _ => []\n    | _ => []","C68","store operations of a prekey packet are not observed"),
("5h3","Hostile","(.injected x.1 ((w.node s).ops (env s) (addr s.peer) p), ⟨upd w.node s x.2, w.wire⟩)","(.injected x.1 ((w.node s).ops (env s) (addr s.peer) p), ⟨upd w.node s.peer x.2, w.wire⟩)","C68","an injected packet changes the other user's store"),
("5r1","Random","  | (_, true) => none\n  | (_, false) => some (sliceToArray 32 got)","  | (b, true) => some (sliceToArray 32 b)\n  | (_, false) => some (sliceToArray 32 got)","C70","GenerateKeyPair ignores the read error"),
("5r2","Random","  | (b, false) => UInt32.ofNat (b.foldr (fun x acc => x.toNat + 256 * acc) 0)","  | (b, false) => UInt32.ofNat (b.reverse.foldr (fun x acc => x.toNat + 256 * acc) 0)","C70","registration id read big-endian"),
("5r3","Random","def generateSenderKey (got : Bytes) : Key32 := ⟨(readRandom 32 got).1, copyInto_length 32 got⟩","def generateSenderKey (_ : Bytes) : Key32 := ⟨copyInto 32 [], copyInto_length 32 []⟩","C70","the group chain key is always zero"),
("5r4","Random","(copyInto n got, decide (got.length < n))","(copyInto n got, decide (got.length ≤ n))","C70","an exact read is an error"),
("5r5","Random","def generateSenderKeyID (got : Bytes) : UInt32 := generateRegistrationID got","def generateSenderKeyID (got : Bytes) : UInt32 := generateRegistrationID got + 1","C70","key id shifted"),
("5r6","Random","st.create C ⟨drawOf got1, generateSenderKeyID got2, generateSenderKey got3⟩ n","st.create C ⟨drawOf got1, generateSenderKeyID got2, generateSenderKey got1⟩ n","C70","group chain key made from the signing key's randomness"),
("5r7","Random","C.sign priv message ⟨(readRandom 64 got).1, copyInto_length 64 got⟩","C.sign priv message ⟨(readRandom 64 []).1, copyInto_length 64 []⟩","C70","signature randomness always zero"),
("5k1","Keys","    ++ (C.dh p.theirSignedPreKey p.ourBasePriv).bytes\n  let master := match p.theirOneTime","\n  let master := match p.theirOneTime","C66","third agreement dropped by the sender"),
("5k2","Keys","⟨b.take 32, (b.drop 32).take 32, (b.drop 64).take 16, c.index⟩","⟨b.take 32, b.take 32, (b.drop 64).take 16, c.index⟩","C54","MAC key equals cipher key"),
("5k3","Keys","def SessionKeys.ofSecrets (b : Bytes) : SessionKeys := ⟨b.take 32, ⟨b.drop 32, 0⟩⟩","def SessionKeys.ofSecrets (b : Bytes) : SessionKeys := ⟨b.take 32, ⟨b.take 32, 0⟩⟩","C54","chain key equals root key: leaking the root leaks the chain"),
("5k4","Keys","def discontinuity : Bytes := List.replicate 32 0xFF","def discontinuity : Bytes := List.replicate 32 0x00","C54","wrong domain separation bytes"),
("5k5","Keys","(ascii \"WhisperRatchet\") 64","(ascii \"WhisperText\") 64","C54","ratchet and X3DH share an info string"),
("5s1","Session","      match s'.setReceiverChainKey eph (ck'.next C) with","      match s'.setReceiverChainKey eph ck' with","C64","the used message key stays derivable from the stored chain"),
("5s2","Session","(.ok recv.chain, s3.setSenderChain ourNew send.chain, true)","(.ok recv.chain, s3.setSenderChain ⟨ourNew.pub, sc.pair.priv⟩ send.chain, true)","C65","old ratchet private key kept with the new public key"),
("5s3","Session","      | .ok s' => skipLoop C eph counter fuel s' (ck.next C)","      | .ok s' => skipLoop C eph counter fuel s' ck","C03","skipping does not advance the chain"),
("5s4","Session","          match createChain C recv.root eph ourNew with","          match createChain C root eph ourNew with","C65","the new sending chain is not linked to the receiving half-step"),
("5s5","Session","            | .ok pt => (.ok (pt, mk), { s2 with pendingPreKey := none }, d)","            | .ok pt => (.ok (pt, mk), { s with pendingPreKey := none }, d)","C05","the decrypting state is not updated: replay"),
("5s6","Session","    | (.ok id, r') => (.ok id, r', [.saveIdentity a (some m.identityKey)])","    | (.ok id, r') => (.ok id, r', [.saveIdentity a (some m.baseKey)])","C12","base key recorded as identity"),
("5s7","Session","    | (.err e, r2, pos') => (.err e, r2, pos', eff)\n    | (.panic, r2, pos') => (.panic, r2, pos', eff)","    | (.err e, r2, pos') => (.err e, r2, pos', eff ++ [.storeSession a r2])\n    | (.panic, r2, pos') => (.panic, r2, pos', eff)","C69","a prekey message that fails to decrypt stores its session"),
("5s8","Session","                            senderBaseKey := some m.baseKey }","                            senderBaseKey := some m.identityKey }","C15","base key of the incoming session not recorded: repeated prekey messages build again"),
("5g1","Groups","  | some i => (s.keys[i]?, { s with keys := s.keys.eraseIdx i })","  | some i => (s.keys[i]?, s)","C67","a used late group key stays in the store"),
("5g2","Groups","    | (.ok ck, s') => ((ck.msgKey C).map some, { s' with chain := ck.next C })","    | (.ok ck, s') => ((ck.msgKey C).map some, { s' with chain := ck })","C67","group chain kept at the used message"),
("5g3","Groups","  newSMKey C k.iteration (k.derivative C [0x01])","  newSMKey C k.iteration k.key","C67","group message key derived from the chain key itself"),
("5g4","Groups","      | .ok k => groupSkip C iteration fuel (s.addKey k) (ck.next C)","      | .ok k => groupSkip C iteration fuel ((s.addKey k).addKey k) (ck.next C)","C67","every skipped group key stored twice: replay"),
("5g5","Groups","  ⟨k.iteration + 1, k.derivative C [0x02]⟩","  ⟨k.iteration + 1, k.derivative C [0x01]⟩","C67","next group chain key equals the message seed"),
# batch 6
("6s1","GroupStores","  ⟨fun x => if x = n then some r.serialize else st.recs x⟩","  ⟨fun x => if x = n then some r.serialize else none⟩","C73","byte store forgets the other groups"),
("6s2","GroupStores","      | (res, some r', true) => (.decrypted res, st.save n r')\n      | (res, _, _) => (.decrypted res, st)","      | (res, some _, true) => (.decrypted res, st)\n      | (res, _, _) => (.decrypted res, st)","C73","the byte store's receiver does not store"),
("6s3","GroupStores","    | .ok r => (.processed (.ok ()), st.save n (groupProcess r m))","    | .ok _ => (.processed (.ok ()), st.save n (groupProcess none m))","C73","processing a distribution message drops earlier states (bytes)"),
("6s4","GroupStores","  | .process n m => (.processed (.ok ()), st.set n (some (groupProcess (st.recs n) m)))","  | .process n m => (.processed (.ok ()), st.set n (some (groupProcess none m)))","C74","processing a distribution message drops earlier states (live)"),
("6s5","GroupStores","(.encrypted x.1, st.set n x.2.1)","(.encrypted x.1, st)","C74","the live sender key is not changed by Encrypt"),
("6s6","GroupStores","  (x.1, if stored then x.2 else st)","  (x.1, if stored then st else x.2)","-","crash flag read the other way round (the same two outcomes, only named differently)"),
("6s7","GroupStores","  if stored then (st.decrypt C S n m).2 else st","  ⟨fun _ => none⟩","C75","a crash in Decrypt loses all sender keys"),
("6s8","GroupStores","{ x with store := x.store.save n r, lock := none,","{ x with lock := none,","C76","Encrypt under the lock does not store"),
("6s9","GroupStores","{ x with lock := some i, pc := fun j => if j = i then .loaded m r' else x.pc j,","{ x with lock := none, pc := fun j => if j = i then .loaded m r' else x.pc j,","C76","the lock is released before the record is stored"),
("6s10","GroupStores","  if mutex && (x.lock.isSome && x.lock != some i) then x else","  if mutex && (x.lock.isSome && x.lock == some i) then x else","C76","lock test inverted"),
("6l1","Store","  effs.foldl LiveStore.apply { st with sessions := upd st.sessions a (some r) }","  effs.foldl LiveStore.apply st","C09","the live object is not shared (C77 stays true; C09/C52/C77 negations fail)"),
("6l2","Store","  | .saveIdentity a k => { st with identities := upd st.identities a k }\n  | .storeSession a r => { st with sessions := upd st.sessions a (some r) }\n  | .removePreKey id => { st with preKeys := upd st.preKeys id none }\n\n/-- After a call","  | .saveIdentity a k => { st with identities := upd st.identities a k }\n  | .storeSession a r => { st with sessions := upd st.sessions a (some r) }\n  | .removePreKey _ => st\n\n/-- After a call","C77","the in-memory store keeps one-time prekeys (the conversation does not notice; LiveRel does)"),
("6l3","Store","def LiveStore.load (st : LiveStore) (a : Addr) : Rec := (st.sessions a).getD Rec.new","def LiveStore.load (_ : LiveStore) (_ : Addr) : Rec := Rec.new","C77","LoadSession of the in-memory store always returns a new session"),
("6l4","LiveWorld","    | .ok m => let x := n.st.decrypt E n.pos peer m; (x.1.map (·.1), ⟨x.2.1, x.2.2⟩)","    | .ok m => let x := n.st.decrypt E n.pos peer m; (x.1.map (·.1), ⟨n.st, x.2.2⟩)","C77","the recipient's in-memory session is not updated"),
("6l5","LiveWorld","  | (.ok cm, st') => (pack E cm, { n with st := st' })","  | (.ok cm, _) => (pack E cm, n)","C77","the sender's in-memory session is not updated: key reuse"),
("6r1","Record","  promote { r with heap := fun x => if x = r.next then SState.new else r.heap x, next := r.next + 1 } r.next","  { r with heap := fun x => if x = r.next then SState.new else r.heap x, next := r.next + 1, cur := r.next }","C52","archiving discards the current session"),
("6r2","Record","  promote { r with heap := fun x => if x = r.next then SState.new else r.heap x, next := r.next + 1 } r.next","  promote { r with heap := fun x => if x = r.next then r.state else r.heap x, next := r.next + 1 } r.next","C71","the new session starts from the old one's chains"),
("6r3","Session","        let r1 := if r.fresh then r else r.archiveCurrentState\n        match calculateReceiverSession","        let r1 := r\n        match calculateReceiverSession","C71","a prekey message overwrites the existing session instead of archiving it"),
("6r4","Session","    let r1 := if r.fresh then r else r.archiveCurrentState\n    match base.priv with","    let r1 := r\n    match base.priv with","C71","a bundle overwrites the existing session instead of archiving it"),
("6r5","Record","  m r.state || r.prevStates.any m","  m r.state","C71","archived sessions are not recognised in repeated prekey messages"),
("6r6","Record","    s.version == version && baseKey == (s.senderBaseKey.map serPub).getD []","    s.version == version","C71","any earlier session counts as the announced one"),
("6r7","Record","if archivedStatesMaxLength < prev.length then prev.dropLast else prev","if archivedStatesMaxLength < prev.length then prev.drop 1 else prev","C52","the newest archived state is dropped instead of the oldest"),
("6r8","Record","def archivedStatesMaxLength : Nat := 40","def archivedStatesMaxLength : Nat := 41","C52","41 archived states"),
# batch 7
("7c1","Crowd","  | .saveIdentity a k => ⟨{ n.st with identities := upd n.st.identities a (some k) }, n.pos⟩","  | .saveIdentity _ k => ⟨{ n.st with identities := fun _ => some k }, n.pos⟩","C79","saving one identity overwrites all"),
("7c2","Crowd","  | .deleteSession a => ⟨{ n.st with sessions := upd n.st.sessions a none }, n.pos⟩","  | .deleteSession _ => ⟨{ n.st with sessions := fun _ => none }, n.pos⟩","C79","deleting one session deletes all"),
("7c3","Crowd","  | .removePreKey id => ⟨{ n.st with preKeys := upd n.st.preKeys id none }, n.pos⟩","  | .removePreKey id => ⟨{ n.st with preKeys := upd n.st.preKeys (id + 1) none }, n.pos⟩","C79","the next prekey is removed"),
("7c4","Crowd","  | .generate => ⟨n.st, n.pos + 1⟩","  | .generate => ⟨n.st, 0⟩","C79","generating a key rewinds the random source"),
("7c5","Crowd","  | .storeSignedPreKey id kp => ⟨{ n.st with signedPreKeys := upd n.st.signedPreKeys id (some kp) }, n.pos⟩","  | .storeSignedPreKey _ kp => ⟨{ n.st with signedPreKeys := fun _ => some kp }, n.pos⟩","C79","storing one signed prekey replaces all"),
("7c6","Crowd","⟨upd w.node s ((w.node s).errand (env s) x), w.wire⟩)","⟨upd w.node s ((w.node s).errand (env s) x), []⟩)","C79","an errand loses the messages in transit"),
("7t1","Threads","      if x.lock (lockOf c.addr) = none then","      if True then","C80","the lock is not waited for"),
("7t2","Threads","  | (.ok id, r1) => .eff (.saveIdentity a (some m.identityKey)) (.decrypted .panic, pos)","  | (.ok id, r1) => .eff (.saveIdentity a none) (.decrypted .panic, pos)","C80","the concurrent program forgets the identity (prog_run)"),
("7t3","Threads","        else .eff (.removePreKey o.value) (.decrypted .panic, pos') (.done (.decrypted (.ok x), pos'))))","        else .done (.decrypted (.ok x), pos')))","C80","the concurrent program keeps the one-time prekey (prog_run)"),
("7t4","Threads","      | .ok r => let x := decryptRec E pos a r m; .effs (.decrypted .panic, x.2.2.1) (.decrypted x.1, x.2.2.1) x.2.2.2","      | .ok r => let x := decryptRec E pos a r m; .effs (.decrypted .panic, pos) (.decrypted x.1, pos) x.2.2.2","C80","random position not advanced (prog_run)"),
("7t5","Threads","    | some st' => (k, st')\n    | none => (.done d, st)","    | some _ => (k, st)\n    | none => (.done d, st)","C80","a store operation interrupted is lost"),
("7t6","Threads","  | some (c, p) =>\n    { x with store := (p.step (E i) x.store).2,","  | some (c, p) =>\n    { x with lock := upd x.lock (lockOf c.addr) none, store := (p.step (E i) x.store).2,","C80","the lock is released at the first access"),
("7t7","Threads","  | .load a k => (k (st.load a), st)","  | .load a k => (k (st.load a), { st with sessions := upd st.sessions a none })","C80","loading removes the stored session"),
("7t8","Threads","upd x.threads i ⟨(x.threads i).hist ++ [ans], pos', none⟩ }","upd x.threads i ⟨ans :: (x.threads i).hist, pos', none⟩ }","C80","answers recorded in the wrong order"),
("7g1","GroupWorld","    | some (n, b) => let x := (w.store who).hear C S n b; (.heard x.1, w.put who x.2)","    | some (_, b) => let x := (w.store who).hear C S ⟨\"\", who⟩ b; (.heard x.1, w.put who x.2)","C78","a group message is read with the recipient's own sender key name"),
("7g2","GroupWorld","    | some (n, b) => let x := (w.store who).hear C S n b; (.heard x.1, w.put who x.2)","    | some (n, b) => let x := (w.store who).hear C S n b; (.heard x.1, w)","C78","the recipient does not store"),
("7g3","GroupWorld","      | .ok m => let x := (w.store who).process n m; (.done x.1, w.put who x.2)","      | .ok m => let x := (w.store who).process n m; (.done x.1, w)","C78","an accepted invitation is not stored"),
("7g4","GroupWorld","    | .ok b => (.done (.ok ()), { w.put n.sender x.2 with wire := w.wire ++ [(n, b)] })","    | .ok b => (.done (.ok ()), { w with wire := w.wire ++ [(n, b)] })","C78","the group sender does not store"),
("7g5","GroupWorld","{ w with store := fun x => if x = a then st else w.store x }","{ w with store := fun _ => st }","C78","one store for all users"),
("7e1","Store","  | .removePreKey id => some { st with preKeys := upd st.preKeys id none }","  | .removePreKey _ => some { st with preKeys := fun _ => none }","C79","RemovePreKey removes all prekeys"),
("7e2","Store","  | .saveIdentity a k => some { st with identities := upd st.identities a k }","  | .saveIdentity _ k => some { st with identities := fun _ => k }","C79","SaveIdentity for all addresses"),
("7e3","Store","    | .ok s => some { st with sessions := upd st.sessions a (some s) }","    | .ok s => some { st with sessions := fun _ => some s }","C42","StoreSession for all addresses"),
("7e5","Store","  | (st', true) => (res, st')\n  | (st', false) => (.panic, st')","  | (st', true) => (res, st')\n  | (st', false) => (res, st')","C30","a panic while storing is swallowed"),
("7g6","Groups","  | some (s :: _) => (.ok (newSKDM s.keyId s.chain.iteration s.chain.key s.signing.pub), none)","  | some (s :: _) => (.ok (newSKDM s.keyId 0 s.chain.key s.signing.pub), none)","C78","a later invitation announces iteration 0"),
("7g7","Groups","  (r.getD []).addState m.id m.iteration (m.chainKey.getD []) m.signatureKey","  GRec.addState [] m.id m.iteration (m.chainKey.getD []) m.signatureKey","C78","Process forgets the earlier states"),
("7g8","Groups","      (.ok (newSKDM d.id 0 d.chain.bytes kp.pub), some rec')","      (.ok (newSKDM d.id 0 d.chain.bytes kp.pub), none)","C78","Create does not store the new keys"),
# batch 8
("8x1","CrashWorld","⟨(n.st.applyAll (ops.take k)).1, pos⟩","⟨(n.st.applyAll (ops.drop k)).1, pos⟩","C81","the later store operations happen first"),
("8x2","CrashWorld","⟨upd w.node s.peer (n.cut ops (n.hear (env s.peer) (addr s) p).2.pos k), w.wire⟩)","⟨upd w.node s.peer (n.cut ops 0 k), w.wire⟩)","C81","a crash rewinds the random source"),
("8x3","CrashWorld","⟨upd w.node s ((w.node s).cut ops (w.node s).pos k), w.wire⟩)","⟨upd w.node s ((w.node s).cut ops (w.node s).pos k), []⟩)","C81","a crash loses the messages in transit"),
("8x4","CrashWorld","(.crashed ((ops.take k).any Effect.isStore), ⟨upd w.node s ((","(.crashed (decide (k > 0)), ⟨upd w.node s ((","C81","a saved identity is reported as a stored session"),
("8x5","CrashWorld","⟨(n.st.applyAll (ops.take k)).1, pos⟩","⟨⟨fun _ => none, n.st.identities, n.st.preKeys, n.st.signedPreKeys⟩, pos⟩","C81","sessions are lost in a crash"),
("8x6","Session","    (.ok m, r', [.saveIdentity a s'.remoteIdentity, .storeSession a r'])","    (.ok m, r', [.storeSession a r', .saveIdentity a s'.remoteIdentity])","-","Encrypt stores the session before the identity (same conversations; the documented order changes)"),
("8x7","Session","      let eff := eff ++ [.storeSession a r2]","      let eff := [.storeSession a r2] ++ eff","-","DecryptMessage stores the session before the identity"),
("8x8","Session","        else (.ok x, r2, pos', eff ++ [.removePreKey o.value])","        else (.ok x, r2, pos', [.removePreKey o.value] ++ eff)","C81","the prekey is removed first: a crash before the session is stored locks Alice out"),
("8h1","GroupThreads","      if x.lock (lockOf c.name) = none then","      if True then","C82","the lock is not waited for"),
("8h2","GroupThreads","      lock := fun l => if l = lockOf c.name then none else x.lock l,","      lock := fun _ => none,","C82","returning releases everybody's locks"),
("8h3","GroupThreads","    { store := x.store.put c.name r,","    { store := x.store,","C82","the record is not stored"),
("8h4","GroupThreads","  | .process _ m => (.processed (.ok ()), some (groupProcess r m))","  | .process _ m => (.processed (.ok ()), some (groupProcess none m))","C82","Process forgets the earlier states"),
("8h5","GroupThreads","{ x with lock := fun l => if l = lockOf c.name then some i else x.lock l,","{ x with lock := x.lock,","C82","the lock is never taken"),
("8h6","GroupThreads","    | (res, some r', true) => (.decrypted res, some r')","    | (res, some r', _) => (.decrypted res, some r')","C82","a failed Decrypt stores its record"),
# batch 9
("9c1","State","if maxReceiverChains < cs.length then cs.drop 1 else cs","if maxReceiverChains < cs.length then cs.dropLast else cs","C84","the newest receiver chain is dropped instead of the oldest"),
("9c2","State","    | some k => (.ok k, s.modifyChain eph (fun c => { c with msgKeys := c.msgKeys.eraseIdx i }))","    | some k => (.ok k, s)","C84","a removed message key stays"),
("9c3","State","  | some _ => .ok (s.modifyChain eph (fun c => { c with chainKey := ck }))","  | some _ => .ok { s with receiverChains := s.receiverChains.map fun c => { c with chainKey := ck } }","C84","SetReceiverChainKey writes all chains"),
("9c4","State","if maxMessageKeys < ks.length then ks.drop 1 else ks","if maxMessageKeys < ks.length then ks.dropLast else ks","C84","the newest skipped key is dropped"),
("9c5","State","  | .ok k => .ok { s with senderBaseKey := some k }\n  | .err _ => .ok","  | .ok _ => .ok s\n  | .err _ => .ok","C84","SetSenderBaseKey does nothing"),
("9a1","Protocol","(C.hmac macKey (serPub s ++ serPub r ++ serialized)).bytes","(C.hmac macKey serialized).bytes","C85","the MAC omits the identities"),
("9a2","Session","match m.verifyMac E.C E.S m.struct.version s2.remoteIdentity s2.localIdentity mk.macKey with","match m.verifyMac E.C E.S m.struct.version s2.localIdentity s2.remoteIdentity mk.macKey with","C85","the identities are swapped when verifying"),
("9a3","Session","match m.verifyMac E.C E.S m.struct.version s2.remoteIdentity s2.localIdentity mk.macKey with","match m.verifyMac E.C E.S m.struct.version s2.remoteIdentity s2.localIdentity mk.cipherKey with","C85","the cipher key is used as MAC key when verifying"),
("9a4","Session","          | .err e => (.err e, s2, d)\n          | .panic => (.panic, s2, d)\n          | .ok () =>\n            match decryptBody","          | .panic => (.panic, s2, d)\n          | _ =>\n            match decryptBody","C85","a wrong MAC is ignored"),
("9a5","Protocol","(getMac C version sender receiver macKey (itoa m.struct.version ++ body)).bind fun ours =>\n        if ours = m.struct.mac.getD [] then","(getMac C version sender receiver macKey (itoa m.struct.version ++ body)).bind fun ours =>\n        if ours.take 4 = (m.struct.mac.getD []).take 4 then","C85","only half of the MAC is compared"),
("9a6","Protocol","(S.ser { m'.struct with mac := none, version := 0 }).bind fun body =>\n      (getMac C version sender","(S.ser { m'.struct with mac := none, version := 0, previousCounter := 0 }).bind fun body =>\n      (getMac C version sender","C85","the previous counter is not covered by the verified MAC"),
("9j1","Json","def isWs (c : UInt8) : Bool := c = 32 || c = 9 || c = 13 || c = 10","def isWs (c : UInt8) : Bool := c = 32 || c = 9 || c = 13 || c = 10 || c = 12","C87","form feed counts as white space"),
("9j2","Json","def isWs (c : UInt8) : Bool := c = 32 || c = 9 || c = 13 || c = 10","def isWs (c : UInt8) : Bool := c = 32 || c = 9 || c = 10","C86","carriage return is not white space"),
("9j3","Json","some ((n - 0xD800) * 1024 + (m - 0xDC00) + 0x10000)","some ((n - 0xD800) * 1024 + (m - 0xDC00))","C86","surrogate pairs decode to the wrong character"),
("9j4","Json","  if names.contains key then some key else names.find? fun n => foldKey n = foldKey key","  if names.contains key then some key else none","C86","field names must match exactly"),
("9j5","Json","(if 65 ≤ c && c ≤ 90 then c + 32 else c) :: foldKey s","(if 65 ≤ c && c < 90 then c + 32 else c) :: foldKey s","C86","Z does not fold to z"),
("9j6","Json","  | 48 :: s => some ([48], s)\n  | s => scanDigits s","  | s => scanDigits s","C87","numbers may begin with zeros"),
("9j7","Json","  | c :: s => if c < 32 || c = 92 then none else (scanStr s)","  | c :: s => if c = 92 then none else (scanStr s)","C87","control characters are accepted in strings"),
("9j8","Json","        if sg = 43 || sg = 45 then (scanDigits s').map","        if sg = 45 then (scanDigits s').map","C87","an exponent with a plus sign is rejected"),
("9j9","Json","      | 93 :: s => some (.arr [], s)\n      | s => (scanElems n s)","      | s => (scanElems n s)","C86","the empty array is rejected"),
("9j10","Json","    if c = 117 then\n      match s with\n      | a :: b :: d :: e :: s' =>\n        if isHex a && isHex b && isHex d && isHex e then","    if c = 117 then\n      match s with\n      | a :: b :: d :: e :: s' =>\n        if isHex a && isHex b && isHex d then","C87","the last digit of an escape may be anything"),
("9j11","Json","c = 92 || c = 47 || c = 34 then","c = 92 || c = 34 then","C87","an escaped slash is rejected"),
("9j12","Json","      | none => runeBytes 0xFFFD ++ unquoteFrom false s","      | none => runeBytes 0xFFFD ++ unquoteFrom true s","C86","after a lone surrogate the next escape is lost"),
("9j13","Json","    (if c = 98 then 8 else if c = 102 then 12","    (if c = 98 then 8 else if c = 102 then 13","C86","\\f reads as carriage return"),
("10l1","Logging","    if contains n caller then true else acc) false","    if contains n caller then true else acc) true","C88","everything is logged whatever the namespaces"),
("10l2","Logging","    let acc := if n = ascii \"all\" then true else acc\n","","C88","the namespace all is not special"),
("10l3","Logging","  | c :: s => if c = 44 then [] :: splitComma s else","  | c :: s => if c = 44 then splitComma s else","C88","commas do not separate namespaces"),
("10l4","Logging","    | .debug | .info => ([], s)\n    | _ =>","    | .debug => ([], s)\n    | _ =>","C88","the default logger prints Info"),
("10l5","Logging","def ensureLogger (s : Option Sink) : Sink := s.getD (.default none)","def ensureLogger (s : Option Sink) : Sink := (fun _ => .default none) s","C88","an installed logger is replaced by the default one"),
("10l6","Logging","[⟨.debug, [.text \"Decrypting ciphertext body: \", .bytes body]⟩, ⟨.debug, [.text \"Using cipherKey: \", .bytes mk.cipherKey]⟩] ++","[⟨.debug, [.text \"Decrypting ciphertext body: \", .bytes body]⟩, ⟨.warning, [.text \"Using cipherKey: \", .bytes mk.cipherKey]⟩] ++","C89","the cipher key is logged as a warning"),
("10l7","Logging","  | (.err e, s', d) => ⟨.warning, [.error e]⟩ :: tryPreviousLog E m r.prev (r.set r.cur s') (bump pos d)","  | (.err _, s', d) => tryPreviousLog E m r.prev (r.set r.cur s') (bump pos d)","C89","no warning when the current state fails"),
("10l8","Logging","          | .err e => [⟨.error, [.text \"Unable to verify ciphertext mac: \", .error e]⟩]","          | .err _ => []","C89","a rejected MAC is not logged"),
("10l9","Logging","          | .ok () => decryptWithKeyLog E.C mk (m.struct.cipherText.getD [])","          | .ok () => decryptWithKeyLog E.C mk (m.struct.cipherText.getD []) ++ [⟨.error, [.bytes mk.macKey]⟩]","C89","the MAC key of an accepted message is logged as an error"),
("10l10","Logging","  | .setup n => ([], n.map .custom)\n  | .log","  | .setup n => ([], match s with | some x => some x | none => n.map .custom)\n  | .log","C88","a second Setup is ignored"),
("10l11","Logging","  | .custom n => ([.handed n level caller msg], s)","  | .custom n => (if level = .debug then [] else [.handed n level caller msg], s)","C88","debug calls do not reach an installed logger"),
("10y1","Async","    if r = false then .failed else .valid r","    if r = true then .failed else .valid r","C90","verification answers the wrong way round"),
("10y2","Async","{ w with jobs := w.jobs.set i (j, true), answers","{ w with jobs := w.jobs.set i (j, false), answers","C90","the goroutine may answer again"),
("10y3","Async","answers := w.answers ++ [(i, j.run C w.mem got)] }","answers := w.answers ++ [(i, j.run C w.mem got), (i, .failed)] }","C90","OnFailure is also called"),
("10y4","Async","    if s = zeroSig then .failed else .signature s","    if s = zeroSig then .signature s else .failed","C90","a signature is reported as a failure"),
("10y5","Async","    | .err _ => .failed\n    | .panic => .crashed","    | .err _ => .crashed\n    | .panic => .crashed","C90","a failing random source crashes"),
("10r1","Session","    let s := r1.state\n          let s := { s with version := currentVersion, remoteIdentity := some m.identityKey,\n                            localIdentity := some E.identity.pub }","    let s := r1.state\n          let s := { s with version := currentVersion, remoteIdentity := some m.identityKey }","C91","a received session has no local identity"),
("10r2","Session","          let s := s.setSenderChain ⟨spk.pub, some spk.priv⟩ keys.chain","          let s := s.setSenderChain ⟨spk.pub, none⟩ keys.chain","C91","a received session has no private ratchet key"),
("10r3","Session","          | none => .err .nilOneTimePreKey","          | none => .panic","C91","a used one-time prekey crashes the recipient"),
("10r4","Basic","  else .ok (input.take first, copyInto second (input.drop first))","  else .ok (input.take (first - 1), copyInto second (input.drop first))","C91","derived keys have the wrong length"),
("10n1","Json","def maxNestingDepth : Nat := 10000","def maxNestingDepth : Nat := 9999","C87","documents may be nested one level less"),
("10n2","Json","if maxNestingDepth < v.depth then none","if maxNestingDepth ≤ v.depth then none","C87","the nesting limit is off by one"),
("10n3","Json","def boolStep (old : Bool) : JVal → Option Bool\n  | .null => some old","def boolStep (old : Bool) : JVal → Option Bool\n  | .null => none","C92","null is refused for a bool"),
("10n4","Json","def intStep (old : Int) : JVal → Option Int\n  | .null => some old","def intStep (old : Int) : JVal → Option Int\n  | .null => none","C92","null is refused for an int"),
("10n5","Json","  | .null => some none\n  | .str s => (b64Dec (unquote s)).map some","  | .null => some (some [])\n  | .str s => (b64Dec (unquote s)).map some","C92","null makes an empty slice, not nil"),
("10n6","Json","  | .null => some none\n  | .obj kvs => some (some (old.getD [] ++ kvs))","  | .null => some (some [])\n  | .obj kvs => some (some (old.getD [] ++ kvs))","C92","null makes an empty structure, not nil"),
("10n7","Json","def intStep (old : Int) : JVal → Option Int\n  | .null => some old","def intStep (old : Int) : JVal → Option Int\n  | .null => some (old + 1)","C92","null adds one"),
("10g1","Groups","  | none => (.panic, none, false)\n  | some [] => (.err .noSenderKeyRecord, r, false)","  | none => (.err .noSenderKeyRecord, none, false)\n  | some [] => (.err .noSenderKeyRecord, r, false)","C93","Decrypt without a record returns an error (what it should do)"),
("10g2","Groups","    (split d 16 32).map fun (iv, key) => ⟨iteration, iv, key, seed⟩","    (split d 16 24).map fun (iv, key) => ⟨iteration, key, iv, seed⟩","C93","IV and key are swapped and shortened"),
("10g3","Groups","  if groupMaxMessageKeys < r'.length then r'.drop 1 else r'","  if groupMaxMessageKeys < r'.length then [] else r'","C93","a full record is emptied"),
("10g4","Groups","  | some i => (s.keys[i]?, { s with keys := s.keys.eraseIdx i })","  | some i => (s.keys[i+1]?, { s with keys := s.keys.eraseIdx i })","C93","the key after the one asked for is returned, or nil"),
("10g5","Groups","    match generateKeyPair C d.signing with\n    | .err e => (.err e, none)","    match generateKeyPair C d.signing with\n    | .err _ => (.panic, none)","C93","Create crashes when the random source fails"),
("10g6","Groups","⟨pub, some (sliceToArray 32 (st.signingPriv.getD []))⟩⟩","⟨pub, st.signingPriv.map (sliceToArray 32)⟩⟩","C93","a reloaded record of somebody else has no private key: Encrypt crashes"),
("11a1","Groups","        if C.verify s.signing.pub body m.sig = false then (.err .signatureFailed, r, false)","        if C.verify s.signing.pub (m.ciphertext.getD []) m.sig = false then (.err .signatureFailed, r, false)","C94","the signature is checked over the ciphertext only"),
("11a2","Protocol","  S.ser { id := m.keyId, iteration := m.iteration, cipherText := m.ciphertext, version := m.version, signature := none }","  S.ser { id := m.keyId, iteration := 0, cipherText := m.ciphertext, version := m.version, signature := none }","C94","the signature does not cover the iteration"),
("11a3","Groups","  (r.getD []).addState m.id m.iteration (m.chainKey.getD []) m.signatureKey","  ([] : GRec).addState m.id m.iteration (m.chainKey.getD []) m.signatureKey","C94","Process throws the record away"),
("11a4","Groups","  if groupMaxMessageKeys < r'.length then r'.drop 1 else r'","  if groupMaxMessageKeys < r'.length then r'.dropLast else r'","C94","a full record does not take new states"),
("11a5","Groups","            let r' := some (modifyFirst (fun s => s.keyId == m.keyId) (fun _ => s') l)","            let r' := some l","C94","the used key is not removed from the record"),
("11a6","Groups","    | .ok m => (.ok m, some ({ s with chain := s.chain.next C } :: rest), true)","    | .ok m => (.ok m, some ({ s with chain := s.chain.next C } :: rest), false)","C95","Encrypt does not store the advanced chain"),
("11a7","Groups","              | .ok pt => (.ok pt, r', true)","              | .ok pt => (.ok pt, r', false)","C95","Decrypt does not store the record"),
("11c1","Session","  if E.trusted ids a m.identityKey = false then (.err .untrustedIdentity, r, [])\n  else","  if E.trusted ids a m.identityKey = true then (.err .untrustedIdentity, r, [])\n  else","C96","Process refuses exactly the trusted identities"),
("11c2","Session","  if E.trusted ids a b.identityKey = false then .err .untrustedIdentity\n  else","  if E.trusted ids ⟨a.name, 0⟩ b.identityKey = false then .err .untrustedIdentity\n  else","C96","ProcessBundle asks about another address"),
("11c3","Session","          let s := { s with version := currentVersion, remoteIdentity := some m.identityKey,\n                            localIdentity := some E.identity.pub }\n          let s := s.setSenderChain","          let s := { s with version := currentVersion, remoteIdentity := some E.identity.pub,\n                            localIdentity := some m.identityKey }\n          let s := s.setSenderChain","C96","local and remote identity are swapped in a received session"),
("11c4","Session","m.verifyMac E.C E.S m.struct.version s2.remoteIdentity s2.localIdentity mk.macKey with","m.verifyMac E.C E.S m.struct.version s2.localIdentity s2.localIdentity mk.macKey with","C96","the MAC is checked with the own identity as sender"),
("11c5","Session","      let eff := eff ++ [.storeSession a r2]\n","      let eff := eff ++ [.storeSession ⟨a.name, 0⟩ r2]\n","C96","the session is stored under device 0"),
("11c6","Session","    if E.C.verify b.identityKey (serPub spk) b.signature = false then .err .invalidSignature\n      else .ok spk","    if E.C.verify spk (serPub spk) b.signature = false then .err .invalidSignature\n      else .ok spk","C96","the prekey signature is checked with the prekey itself"),
("11c7","Record","  { r with cur := a, prev := if archivedStatesMaxLength < prev.length then prev.dropLast else prev }","  { r with cur := a, prev := if archivedStatesMaxLength < prev.length then prev.dropLast else a :: prev }","C06","the promoted state is archived too"),
("11d1","Session","          | .err e => (.err e, s2, d)\n          | .panic => (.panic, s2, d)\n          | .ok () =>","          | .err e => (.err e, s1, d)\n          | .panic => (.panic, s2, d)\n          | .ok () =>","C19","a bad MAC does not consume the message key (what it should do)"),
("11d2","Session","            | .ok pt => (.ok (pt, mk), { s2 with pendingPreKey := none }, d)","            | .ok pt => (.ok (pt, mk), { s2 with pendingPreKey := none, previousCounter := m.struct.previousCounter }, d)","C19","a decrypted message sets the own previous counter"),
("12a1","Session","        let s' := { s with senderChain := some { sc with chainKey := sc.chainKey.next E.C } }\n        match s.pendingPreKey with","        let s' := { s with senderChain := some sc }\n        match s.pendingPreKey with","C98","Encrypt does not advance the sending chain"),
("12b1","Groups","    | .ok m => (.ok m, some ({ s with chain := s.chain.next C } :: rest), true)","    | .ok m => (.ok m, some (s :: rest), true)","C99","group Encrypt does not advance the chain"),
("12b2","Groups","  | some (s :: _) => (.ok (newSKDM s.keyId s.chain.iteration s.chain.key s.signing.pub), none)\n  | _ =>","  | some (s :: s' :: _) => (.ok (newSKDM s.keyId s.chain.iteration s.chain.key s.signing.pub), none)\n  | _ =>","C99","Create replaces a record that has one state"),
("12b3","Groups","  let r' := r ++ [⟨[], id, ⟨iteration, chainKey⟩, ⟨pub, none⟩⟩]\n","  let r' := [⟨[], id, ⟨iteration, chainKey⟩, ⟨pub, none⟩⟩] ++ r\n","C99","Process puts the new state first, where Encrypt finds it"),
("12b4","Groups","    | (.ok ck, s') => ((ck.msgKey C).map some, { s' with chain := ck.next C })","    | (.ok ck, s') => ((ck.msgKey C).map some, { s' with chain := ⟨iteration - 1, ck.key⟩ })","C99","decrypting moves the iteration back"),
("12a2","Session","            (.ok recv.chain, s3.setSenderChain ourNew send.chain, true)","            (.ok recv.chain, s3.setSenderChain sc.pair send.chain, true)","C98","the ratchet step keeps the old ratchet key for sending"),
("12a3","Session","            (.ok recv.chain, s3.setSenderChain ourNew send.chain, true)","            (.ok recv.chain, s3.setSenderChain ourNew send.chain, false)","C98","the drawn key is drawn again by the next call"),
("12a4","Store","  | .ok r => let (res, _, effs) := encryptRec E a r plaintext; (res, effs)","  | .ok r => let (res, _, effs) := encryptRec E a r plaintext; (res, effs.take 1)","C98","Encrypt returns before it stores everything"),
("13a1","Install","storePreKeys (upd f p.id.value (some (newPreKey p.id.value p.pair).pair)) ps","storePreKeys (upd f 0 (some (newPreKey p.id.value p.pair).pair)) ps","C102","all prekeys are stored under number 0"),
("13a2","Install","env := { E with identity := ident }","env := E","C102","the generated identity is not kept"),
("13a3","Install","(E.rng (pos + 1 + pks.length)) rand now ident.priv spkId","(E.rng (pos + 1 + pks.length)) rand now E.identity.priv spkId","C102","the signed prekey is signed with another key"),
("13a4","Install","signedPreKeys := upd (fun _ => none) spk.struct.id","signedPreKeys := upd (fun _ => none) 0","C102","the signed prekey is stored under number 0"),
("13a5","Install","signedPreKeyPublic := some spk.pair.pub","signedPreKeyPublic := some pk.pair.pub","C102","the bundle carries the prekey as signed prekey"),
("13a6","Install","preKeyId := some pk.id,","preKeyId := some (OptU32.new 0),","C102","the bundle names another prekey"),
("13a7","Install","  | p :: ps => storePreKeys (upd f p.id.value (some (newPreKey p.id.value p.pair).pair)) ps","  | p :: _ => storePreKeys (upd f p.id.value (some (newPreKey p.id.value p.pair).pair)) []","C102","only the first prekey is stored"),
("13b1","Sign","G.sha512 (diversifier ++ priv.bytes ++ msg ++ random.bytes)","G.sha512 (diversifier ++ priv.bytes ++ random.bytes)","C103","the nonce does not depend on the message"),
("13b2","Sign","def diversifier : Bytes := 0xFE :: List.replicate 31 0xFF","def diversifier : Bytes := List.replicate 32 0xFF","C103","the diversifier is all ones"),
("13b3","Sign","  let hramDigest := G.sha512 (encodedR.bytes ++ publicKey.bytes ++ msg)","  let hramDigest := G.sha512 (encodedR.bytes ++ msg)","C103","the challenge does not depend on the public key"),
("13b4","Sign","  let publicKey := pub.bytes.modify 31 (· &&& 0x7F)","  let publicKey := pub.bytes.modify 31 (· &&& 0x3F)","C103","verify clears two bits of the public key"),
("13b5","Sign","  let signature : Sig64 := ⟨signature.bytes.modify 63 (· &&& 0x7F), by simp [signature.len]⟩","  let signature : Sig64 := ⟨signature.bytes.modify 63 (· &&& 0xFF), by simp [signature.len]⟩","C103","the sign bit stays in the signature"),
("13c1","Handles","  match process E ids preKeys signedPreKeys b r m with","  match process E ids preKeys signedPreKeys a r m with","C104","Process works with the cipher's address (what it should do)"),
("13c2","Handles","      let eff := eff ++ [.storeSession a r2]","      let eff := eff ++ [.storeSession b r2]","C104","the session is stored for the builder's address"),
("13c3","Handles","    | none => (.panic, pos, [])\n    | some b =>","    | none => (.err .untrustedIdentity, pos, [])\n    | some b =>","C104","a missing builder is an error (better than what it does)"),
("13c4","Handles","def Cipher.encrypt (c : Cipher) (E : Env) (st : Store) (plaintext : Bytes) : Res CipherMsg × Store := st.encrypt E c.addr plaintext","def Cipher.encrypt (c : Cipher) (E : Env) (st : Store) (plaintext : Bytes) : Res CipherMsg × Store := st.encrypt E (c.builder.elim c.addr (·.addr)) plaintext","C104","Encrypt uses the builder's address"),
("13c5","Handles","      | .err e => (.err e, st)\n      | _ => (.panic, st)","      | .err e => (.err e, st)\n      | _ => (.err .noSenderKeys, st)","C104","a group cipher without builder returns an error"),
("13d1","JoinWorld","(w.rooms.store (addr s.peer)).process ⟨g, addr s⟩ m;","(w.rooms.store (addr s.peer)).process ⟨g, addr s.peer⟩ m;","C105","an invitation is processed under the receiver's own name"),
("13d2","JoinWorld","(.joined x.1, ⟨tw, w.rooms.put (addr s.peer) x.2⟩)","(.joined x.1, ⟨tw, w.rooms⟩)","C105","a received invitation is not stored"),
("13d3","JoinWorld","(F.enc (.inr (n.groupId, b)))","(F.enc (.inl b))","C105","an invitation is sent as a text"),
("13d4","JoinWorld","      let g : GWorld := { w.rooms.put n.sender x.2 with invites := w.rooms.invites ++ [(n, b)] }","      let g : GWorld := { w.rooms with invites := w.rooms.invites ++ [(n, b)] }","C105","the created sender key is not stored"),
("13d5","JoinWorld","      | some (.inl text) => (.heard (.ok text), { w with talk := tw })","      | some (.inl text) => (.heard (.ok text), w)","C105","a delivery does not advance the session"),
("14a1","Steps","tick (.index \"base\" [pos, i])","tick (.index \"base\" [pos, bAbs.toNat - 1])","C106","the table is indexed with the secret digit"),
("14a2","Steps","    tCompareLoop (i + 1) xs ys (v ||| (x ^^^ y))","    if x = y then tCompareLoop (i + 1) xs ys v else return 1","C106","the comparison stops at the first difference"),
("14a3","Steps","do ed 799; ed 800; ed 801; return equal32 b c","Steps.cond (b == c) (return 1) (return 0)","C106","equal branches"),
("14a4","Steps","  return feCMove f g b","  Steps.cond (b == 0) (return f) (return feCMove f g b)","C106","the conditional move branches"),
("14a5","Steps","  | i :: l, h => do\n    tick (.branch true)\n    tick (.index \"e\" [i])\n","  | i :: l, h => if e.getD i 0 = 0 then tAddDigits e l h else do\n    tick (.branch true)\n    tick (.index \"e\" [i])\n","C106","zero digits are skipped"),
("14a6","Steps","  let t ← tSelectLoop pos bAbs (List.range 8) t\n","  let t ← tSelectLoop pos bAbs (List.range bAbs.toNat) t\n","C106","the table is searched up to the wanted entry only"),
("14a7","Steps","  let r ← tSha512 G [diversifier, priv.bytes, msg, random.bytes]","  let r ← tSha512 G [diversifier, priv.bytes, msg]","C106","the nonce does not use the random bytes"),
("14a8","Steps","      let eq ← tHmacEqual ours (m.struct.mac.getD [])\n","      let eq : Bool := decide (ours = m.struct.mac.getD [])\n      tick (.index \"mac\" [((ours.zip (m.struct.mac.getD [])).takeWhile fun p => p.1 == p.2).length])\n","C106","bytes.Equal instead of hmac.Equal"),
("15a1","Work","  else if maxFutureMessages < counter - ck.index then return (.err .tooFarFuture, s)\n","","C107","no limit on how far ahead a message may be"),
("15a2","Work","let x ← wSkipLoop C eph counter (counter - ck.index).toNat s ck\n","let x ← wSkipLoop C eph counter counter.toNat s ck\n","C107","the loop runs as often as the counter says"),
("15a3","Work","  else if 2000 < iteration - s.chain.iteration then return (.err .tooFarFuture, s)\n","","C107","no limit on how far ahead a group message may be"),
("15a4","Work","        tick (.lib \"verify\" [32, body.length, 64])\n        if C.verify s.signing.pub body m.sig = false then return (.err .signatureFailed, r, false)\n        else do\n          let x ← wGetSenderKey C s m.iteration\n","        let x ← wGetSenderKey C s m.iteration\n        tick (.lib \"verify\" [32, body.length, 64])\n        if C.verify s.signing.pub body m.sig = false then return (.err .signatureFailed, r, false)\n        else do\n","C107","the group signature is checked after the keys are derived"),
("15a5","Work","      let mk ← wMsgKeys C ck\n      match s.setMessageKeys eph mk with","      let mk ← wMsgKeys C ck\n      let mk ← wMsgKeys C (ChainKey.mk ck.key mk.index)\n      match s.setMessageKeys eph mk with","C107","message keys are derived twice"),
("15a6","Work","    | (.err _, s', d) => wTryPrevious E m rest (i + 1) (r.set a s') (bump pos d)","    | (.err _, s', d) => do\n      let _ ← wTryPrevious E m rest (i + 1) (r.set a s') (bump pos d)\n      wTryPrevious E m rest (i + 1) (r.set a s') (bump pos d)","C107","each archived state doubles the work"),
("15a7","Work","    let mk ← wMsgKeys E.C sc.chainKey\n    tick","    let mk ← wMsgKeys E.C sc.chainKey\n    let _ ← wSkipLoop E.C sc.pair.pub sc.chainKey.index sc.chainKey.index.toNat s ⟨[], 0⟩\n    tick","C107","Encrypt runs through the chain again"),
("15a8","Record","def archivedStatesMaxLength : Nat := 40","def archivedStatesMaxLength : Nat := 400","C107","400 states are archived"),
("15a9","Session","def maxFutureMessages : UInt32 := 5000","def maxFutureMessages : UInt32 := 50000","C107","messages may be 50000 ahead"),
# ---- definitions no mutant had touched
("16a1","KeyAgree","mult ourKey theirKey","mult theirKey ourKey","C108","scalar and point are swapped"),
("16a2","KeyAgree","mult ourKey theirKey","mult ourKey ourKey","C108","our key is used as the point"),
("16a3","KeyAgree","dh := calculateSharedSecret mult }","dh := fun their our => calculateSharedSecret mult our their }","C108","callers pass their key and ours in the wrong order"),
("16b1","Groups","(C.hmac k.key seed).bytes","(C.hmac seed k.key).bytes","C67","key and message of the group HMAC are swapped"),
("16b2","Groups","[⟨[], id, ⟨iteration, chainKey⟩, kp⟩]","[⟨[], id, ⟨iteration + 1, chainKey⟩, kp⟩]","C29","a new sending state starts one iteration late"),
("16b3","Groups","⟨s.keys, s.keyId, s.chain, s.signing.priv.map Arr.bytes, serPub s.signing.pub⟩","⟨[], s.keyId, s.chain, s.signing.priv.map Arr.bytes, serPub s.signing.pub⟩","C23","stored message keys are not written to the record"),
("16b4","Groups","def GRec.toStruct (r : GRec) : List SKStateStruct := r.map SKState.toStruct","def GRec.toStruct (r : GRec) : List SKStateStruct := (r.take 1).map SKState.toStruct","C23","only the newest state is written"),
("16b5","Groups","seqRes (st.map SKState.ofStruct)","seqRes (st.reverse.map SKState.ofStruct)","C23","states come back in the opposite order"),
("16c1","State","{ s with senderChain := some ⟨pair, ck, []⟩ }","{ s with senderChain := some ⟨pair, ck, []⟩, receiverChains := [] }","C03","setting the sender chain drops the receiver chains"),
("16c2","State","⟨p.preKeyId, p.signedPreKeyId, serPub p.baseKey⟩","⟨none, p.signedPreKeyId, serPub p.baseKey⟩","C21","the pending one-time prekey id is not saved"),
("16c3","State","(decodePoint st.baseKey).map fun k => ⟨st.preKeyId, st.signedPreKeyId, k⟩","(decodePoint st.baseKey).map fun k => ⟨st.preKeyId, 0, k⟩","C21","the pending signed prekey id is not read back"),
("16c4","State","⟨p.sequence, p.baseKey.pub.bytes, p.baseKey.priv.bytes, p.ratchetKey.pub.bytes, p.ratchetKey.priv.bytes,","⟨p.sequence, p.baseKey.pub.bytes, p.baseKey.priv.bytes, p.ratchetKey.priv.bytes, p.ratchetKey.pub.bytes,","C21","ratchet public and private key are exchanged when saved"),
("16d1","PreKeys","⟨⟨id, serPub kp.pub, kp.priv.bytes, sig.bytes, timestamp⟩, kp, sig⟩","⟨⟨id, kp.pub.bytes, kp.priv.bytes, sig.bytes, timestamp⟩, kp, sig⟩","C22","the saved public key has no type byte"),
("16d2","PreKeys","(C.sign idPriv (serPub kp.pub) rand)","(C.sign idPriv kp.pub.bytes rand)","C102","the signature covers the bare key, the verifier checks the serialised one"),
("16e1","Record","def prevStates (r : Rec) : List SState := r.prev.map r.heap","def prevStates (r : Rec) : List SState := r.prev.reverse.map r.heap","C21","archived states are saved in the opposite order"),
("16e2","Record","(SState.ofStruct st.state).map fun s => Rec.ofStates s prev","(SState.ofStruct st.state).map fun s => Rec.ofStates s []","C21","archived states are lost on reading"),
("16f1","Session","encryptCbc C none (some k.iv) k.cipherKey plaintext","encryptCbc C none (some k.iv) k.macKey plaintext","C03","the body is encrypted with the MAC key"),
("16f2","Session","decryptCbc C (some k.iv) k.cipherKey body","decryptCbc C none k.cipherKey body","C03","the IV is taken from the body"),
("16f3","Session","decryptBody E.C k (m.struct.cipherText.getD [])\n\nend Verif","decryptBody E.C k (m.struct.mac.getD [])\n\nend Verif","C28","DecryptWithKey decrypts the MAC"),
("16g1","Handles","⟨a, some b⟩","⟨b.addr, some b⟩","C104","the cipher takes the builder's address"),
("16g2","Handles","pos b.addr c.addr r m","pos c.addr c.addr r m","C104","the identity is saved under the cipher's address"),
("16g3","Handles","    | none => (.panic, pos, [])","    | none => (.err .noSession, pos, [])","C104","a nil builder is reported instead of dereferenced"),
("16g4","Handles","let eff := eff ++ [.storeSession a r2]","let eff := eff ++ [.storeSession b r2]","C104","the session is stored under the builder's address"),
("16g5","Handles","  | some S => st.encrypt C S rand c.name pt","  | some S => (( st.encrypt C S rand c.name pt).1, st)","C104","the advanced group record is not stored"),
("16h1","LiveCrowd",".generate => ⟨n.st, n.pos + 1⟩",".generate => ⟨n.st, n.pos⟩","-","(control: the random position is irrelevant to crashing)"),
("16h2","LiveCrowd","| .storeSignedPreKey id kp => ⟨{ n.st with signedPreKeys := upd n.st.signedPreKeys id (some kp) }, n.pos⟩","| .storeSignedPreKey id kp => ⟨{ n.st with signedPreKeys := upd n.st.signedPreKeys id (some kp), sessions := fun _ => some (Rec.ofStates SState.new [SState.new]) }, n.pos⟩","C91","storing a signed prekey overwrites sessions with uninitialised ones"),
("16i1","Logging","ns.getD [ascii \"all\"]","ns.getD []","C88","without configuration nothing is printed"),
("16i2","Logging","    | .debug | .info => ([], s)","    | .debug => ([], s)","C88","info lines are printed by the default logger"),
("16i3","Logging","  | .default _ => .default (some (splitComma settings))","  | .default ns => .default (some (ns.getD [] ++ splitComma settings))","C88","Configure adds to the namespaces"),
("16i4","Logging","  | .setup n => ([], n.map .custom)","  | .setup n => ([], (n.map .custom).or s)","C88","Setup(nil) keeps the old logger"),
("16i5","Logging","{ w with logger := some (.default none), pc :=","{ w with logger := w.logger.or (some (.default none)), pc :=","C88","the race in ensureLogger is repaired"),
("16i6","Logging","  | .custom n => ([.handed n level caller msg], s)","  | .custom n => (if level = .debug then [] else [.handed n level caller msg], s)","C88","debug lines are not handed to the installed logger"),
("16j1","Work","    let ck' ← wNext C ck\n        wSkipLoop","    let ck' ← wNext C ck\n        let _ ← wMsgKeys C ck'\n        wSkipLoop","C107","each skipped key is derived twice"),
("16j2","Work","  let b ← wDerive C k.bytes none (ascii \"WhisperMessageKeys\") 80","  let b ← wDerive C k.bytes none (ascii \"WhisperMessageKeys\") 8000","C107","8000 bytes are derived for each message key"),
("16j3","Work","    | (.err _, s', d) => wTryPrevious E m rest (i + 1) (r.set a s') (bump pos d)","    | (.err _, s', d) => do\n      let _ ← wDecryptWithState E (E.rng pos) s' m\n      wTryPrevious E m rest (i + 1) (r.set a s') (bump pos d)","C107","every archived state is tried twice"),
("16k1","Whole","(.injected ops, ⟨upd w.node s (n.hear (env s) (addr s.peer) p).2, w.wire⟩)","(.injected ops, ⟨upd w.node s (n.hear (env s) (addr s.peer) p).2, p :: w.wire⟩)","C100","made-up packets appear on the wire as sent ones"),
("16k2","Whole","n.cut ops (n.hear (env s) (addr s.peer) p).2.pos k","n.cut ops (n.hear (env s) (addr s.peer) p).2.pos (k + 1)","C100","one more store operation is done than observed"),
("16k3","Deeds","| .processBundle a b => let x := st.processBundleTrace E pos a b; (x.2.2, x.2.1)","| .processBundle a b => let x := st.processBundleTrace E pos a b; (x.2.2.reverse, x.2.1)","C98","the identity is saved before the session"),
("16k4","GroupCrash","  | (_, some false) => (none, w)","  | (e, some false) => (none, (w.step C S T d rand e).2)","C95","a call cut off before storing is completed"),
("16k5","GroupDeeds","  | some false => st\n","  | some false => fun _ => none\n","C99","dying loses the stores"),
("16l1","Protocol","  (S.de b).bind newSignalMessageFromStruct","  (S.de (b.drop 1)).bind newSignalMessageFromStruct","C24","the first byte is dropped on reading"),
("16l2","Protocol","          signature := m.signature }","          signature := none }","C26","SignedSerialize leaves the signature out"),
("16l3","Protocol","chainKey := m.chainKey,\n          signingKey","chainKey := none,\n          signingKey","C26","the chain key is left out of distribution messages"),
("16m1","Json","if n < 0x800 then [UInt8.ofNat (0xC0 + n / 64)","if n < 0x1000 then [UInt8.ofNat (0xC0 + n / 64)","C87","the two-byte range of UTF-8 is too large"),
("16m2","Json","0xD800 ≤ n && n < 0xE000","0xD800 ≤ n && n < 0xDC00","C87","low surrogates are encoded as characters"),
("16m3","Json","hexVal a * 16 + hexVal b) * 16 + hexVal c) * 16 + hexVal d","hexVal a * 16 + hexVal b) * 16 + hexVal d) * 16 + hexVal c","C87","the last two hex digits are exchanged"),
("16m4","Json","  | none => .null\n  | some a => f a","  | none => .obj []\n  | some a => f a","C60","a nil pointer is written as an empty object"),
("16n2","Group","⟨feMul p.X p.T, feMul p.Y p.Z, feMul p.Z p.T, feMul p.X p.Y⟩","⟨feMul p.X p.T, feMul p.Y p.Z, feMul p.Z p.T, feMul p.X p.Z⟩","C45","T is computed from the wrong products"),
("16n3","Group","def PrePoint.zero : PrePoint := ⟨feOne, feOne, feZero⟩","def PrePoint.zero : PrePoint := ⟨feOne, feZero, feZero⟩","C45","the neutral table entry is wrong"),
("16n4","Group","feCMove t.yMinusX u.yMinusX b.toInt","feCMove t.yMinusX u.yPlusX b.toInt","C45","the constant-time selection takes the wrong field"),
("16n5","Group","  let rT := feSub rT rZ","  let rT := feAdd rT rZ","C45","doubling adds where it should subtract"),
("17a1","Fingerprint","  if bytesLt d.localNumbers d.remoteNumbers then d.localNumbers ++ d.remoteNumbers else d.remoteNumbers ++ d.localNumbers","  d.localNumbers ++ d.remoteNumbers","C109","the two halves are not ordered"),
("17a2","Fingerprint","(displayStringFor remoteFp).map fun r => ⟨l, r⟩","(displayStringFor remoteFp).map fun _ => ⟨l, l⟩","C109","the local fingerprint is shown twice"),
("17a3","Fingerprint","⟨d, []⟩","⟨d, d.text⟩","C109","Scan returns the displayed text"),
("17a4","Fingerprint","else d.remoteNumbers ++ d.localNumbers","else d.remoteNumbers ++ d.remoteNumbers","C109","the greater half is dropped"),
("17a5","Fingerprint","if bytesLt d.localNumbers d.remoteNumbers","if bytesLt d.remoteNumbers d.localNumbers","C109","the greater half comes first"),
("17a6","Misc","(encodedChunk fp 15).bind fun d => (encodedChunk fp 20)","(encodedChunk fp 15).bind fun d => (encodedChunk fp 15)","C109","the fourth group is shown twice, the fifth is hidden"),
]
import os as _os, json as _json
if _os.environ.get("AUTOMUT"): M = M + [tuple(x) for x in _json.load(open(_os.environ["AUTOMUT"]))]
