lean/.lake/
*.olean
*.ilean
lean/lake-manifest.json
